import Verif.Spec.FuzzMain
import Verif.Props.Fuzz

/-
Property C76: the driver of the fuzz targets.
-/

namespace Idn2
open Spec

variable {F : Nat → Bool} {L : List Nat}

/-- How a run over some files ends, `c` being the inputs among them. -/
def RunsOver (F : Nat → Bool) (L : List Nat) (c : List (List Nat)) (r : List FuzzEv × FuzzEnd)
    (L' : List Nat) : Prop :=
  (tested r.1).Sublist c ∧
    ((r.2 = .abort ∧ ∃ k, F k = true) ∨
     (r.2 = .done ∧ L' = L ∧ Paired r.1 ∧ ((∀ k, F k = false) → tested r.1 = c)))

theorem Spec.Paired.append {a b : List FuzzEv} (ha : Paired a) (hb : Paired b) : Paired (a ++ b) := by
  induction ha with
  | nil => exact hb
  | message e evs h1 h2 _ ih => exact .message e _ h1 h2 ih
  | file f e evs h1 h2 _ ih => exact .file f e _ h1 h2 ih

theorem tested_append (a b : List FuzzEv) : tested (a ++ b) = tested a ++ tested b := by
  unfold tested; rw [List.filterMap_append]

theorem tri_testFile {fs : Fs} {target : List Nat → HeapM FuzzEnd}
    (ht : ∀ data L, Tri F (target data) L (Returns F L))
    (he : NoEmptyFile fs ∨ ∀ k, F k = false) (fname : List Nat) :
    Tri F (testFile fs target fname) L (RunsOver F L (contents fs fname).toList) := by
  unfold testFile contents
  cases hf : fs.file fname with
  | noOpen =>
    exact Tri.pure ⟨by simp [tested], Or.inr ⟨rfl, rfl,
      .message _ _ (by simp) (by simp) .nil, fun _ => rfl⟩⟩
  | noStat =>
    exact Tri.pure ⟨by simp [tested], Or.inr ⟨rfl, rfl,
      .file _ _ _ (by simp) (by simp) .nil, fun _ => rfl⟩⟩
  | file size bytes =>
    simp only
    refine Tri.bind Tri.malloc ?_
    rintro _ _ _ (⟨⟨k, hk⟩, rfl, rfl⟩ | ⟨p, rfl, rfl⟩)
    · have hne : ¬ (size = 0 ∧ bytes.isSome) := by
        rintro ⟨rfl, hb⟩
        rcases he with he | he
        · cases bytes with
          | none => cases hb
          | some b => exact he fname b hf
        · rw [he] at hk; cases hk
      simp only [if_neg hne]
      exact Tri.pure ⟨by simp [tested], Or.inr ⟨rfl, rfl, .file _ _ _ (by simp) (by simp) .nil,
        fun h => by rw [h] at hk; cases hk⟩⟩
    · cases bytes with
      | none =>
        simp only
        refine Tri.bind Tri.freeHead ?_
        rintro _ _ _ rfl
        exact Tri.pure ⟨by simp [tested], Or.inr ⟨rfl, rfl,
          .file _ _ _ (by simp) (by simp) .nil, fun _ => rfl⟩⟩
      | some b =>
        simp only
        by_cases hs : size ≤ b.length
        · have h1 : (b.take size).length = size := by rw [List.length_take]; omega
          rw [if_pos h1, if_pos hs]
          refine Tri.bind Tri.touchHead ?_
          rintro _ _ _ rfl
          refine Tri.bind (ht _ _) ?_
          rintro _ _ _ (⟨rfl, hk⟩ | ⟨rfl, rfl⟩)
          · exact Tri.pure ⟨by simp [tested], Or.inl ⟨rfl, hk⟩⟩
          · simp only
            refine Tri.bind Tri.freeHead ?_
            rintro _ _ _ rfl
            exact Tri.pure ⟨by simp [tested], Or.inr ⟨rfl, rfl,
              .file _ _ _ (by simp) (by simp) .nil, fun _ => rfl⟩⟩
        · have h1 : ¬ (b.take size).length = size := by rw [List.length_take]; omega
          rw [if_neg h1, if_neg hs]
          refine Tri.bind Tri.freeHead ?_
          rintro _ _ _ rfl
          exact Tri.pure ⟨by simp [tested], Or.inr ⟨rfl, rfl,
            .file _ _ _ (by simp) (by simp) .nil, fun _ => rfl⟩⟩

/-- The inputs among the given entries of a directory. -/
def inputsOf (fs : Fs) (dir : List Nat) (names : List (List Nat)) : List (List Nat) :=
  names.filterMap fun name =>
    if name.head? ≠ some 0x2E ∧ dir.length + 1 + name.length < 1024 then
      contents fs (dir ++ 0x2F :: name)
    else none

theorem inputsOf_cons (fs : Fs) (dir name : List Nat) (r : List (List Nat)) :
    inputsOf fs dir (name :: r) =
      (if name.head? ≠ some 0x2E ∧ dir.length + 1 + name.length < 1024 then
        (contents fs (dir ++ 0x2F :: name)).toList else []) ++ inputsOf fs dir r := by
  unfold inputsOf
  rw [List.filterMap_cons]
  by_cases hc : name.head? ≠ some 0x2E ∧ dir.length + 1 + name.length < 1024
  · rw [if_pos hc, if_pos hc]
    cases contents fs (dir ++ 0x2F :: name) <;> rfl
  · rw [if_neg hc, if_neg hc]
    rfl

theorem path_eq (dir name : List Nat) : dir ++ str "/" ++ name = dir ++ 0x2F :: name := by
  have : str "/" = [0x2F] := by decide
  rw [this, List.append_assoc]; rfl

theorem tri_testNames {fs : Fs} {target : List Nat → HeapM FuzzEnd}
    (ht : ∀ data L, Tri F (target data) L (Returns F L))
    (he : NoEmptyFile fs ∨ ∀ k, F k = false) (dir : List Nat) (names : List (List Nat)) :
    Tri F (testNames fs target dir names) L (RunsOver F L (inputsOf fs dir names)) := by
  induction names with
  | nil => exact Tri.pure ⟨by simp [tested], Or.inr ⟨rfl, rfl, .nil, fun _ => rfl⟩⟩
  | cons name r ih =>
    unfold testNames
    rw [inputsOf_cons]
    by_cases hh : name.head? = some 0x2E
    · rw [if_pos hh, if_neg (fun h => h.1 hh)]
      exact ih
    rw [if_neg hh, path_eq]
    have hlen : (dir ++ 0x2F :: name).length = dir.length + 1 + name.length := by
      rw [List.length_append, List.length_cons]; omega
    by_cases hl : (dir ++ 0x2F :: name).length ≥ 1024
    · rw [if_pos hl, if_neg (fun h => by have := h.2; omega)]
      refine Tri.bind ih ?_
      rintro x L' _ ⟨hsub, h⟩
      refine Tri.pure ⟨hsub, ?_⟩
      rcases h with ⟨h1, h2⟩ | ⟨h1, h2, h3, h4⟩
      · exact Or.inl ⟨h1, h2⟩
      · exact Or.inr ⟨h1, h2, .message _ _ (by simp) (by simp) h3, h4⟩
    · rw [if_neg hl, if_pos ⟨hh, by omega⟩]
      refine Tri.bind (tri_testFile ht he _) ?_
      rintro ⟨x, e⟩ L' _ ⟨hsub, h⟩
      rcases h with ⟨h1, h2⟩ | ⟨h1, h2, h3, h4⟩
      · simp only at h1
        subst h1
        refine Tri.pure ⟨?_, Or.inl ⟨rfl, h2⟩⟩
        show (tested x).Sublist _
        exact List.Sublist.trans hsub (List.sublist_append_left _ _)
      · simp only at h1 h2 h3 h4 hsub
        subst h1 h2
        simp only
        refine Tri.bind ih ?_
        rintro ⟨y, e⟩ L'' _ ⟨hsub', h'⟩
        simp only at h' hsub'
        refine Tri.pure ⟨?_, ?_⟩
        · simp only
          rw [tested_append]
          exact hsub.append hsub'
        · rcases h' with ⟨h1', h2'⟩ | ⟨h1', h2', h3', h4'⟩
          · exact Or.inl ⟨h1', h2'⟩
          · refine Or.inr ⟨h1', h2', h3.append h3', fun hF => ?_⟩
            simp only
            rw [tested_append, h4 hF, h4' hF]

theorem tri_testAllFrom {fs : Fs} {target : List Nat → HeapM FuzzEnd}
    (ht : ∀ data L, Tri F (target data) L (Returns F L))
    (he : NoEmptyFile fs ∨ ∀ k, F k = false) (dir : List Nat) :
    Tri F (testAllFrom fs target dir) L (RunsOver F L (corpus fs dir)) := by
  unfold testAllFrom corpus
  cases fs.dir dir with
  | none => exact Tri.pure ⟨by simp [tested], Or.inr ⟨rfl, rfl, .nil, fun _ => rfl⟩⟩
  | some names => exact tri_testNames ht he dir names

/-! ### The whole program -/

theorem afterLast_none {c : Nat} {s : List Nat} : afterLast c s = none ↔ c ∉ s := by
  induction s with
  | nil => simp [afterLast]
  | cons x r ih =>
    unfold afterLast
    cases h : afterLast c r with
    | some t =>
      rw [h] at ih
      simp only [reduceCtorEq, false_iff, List.mem_cons] at ih ⊢
      exact fun hn => ih fun hm => hn (Or.inr hm)
    | none =>
      have := ih.mp h
      simp only [ite_eq_right_iff, reduceCtorEq, imp_false, List.mem_cons]
      constructor
      · rintro h1 (h2 | h2)
        · exact h1 h2.symm
        · exact this h2
      · exact fun h1 h2 => h1 (Or.inl h2.symm)

theorem afterLast_some {c : Nat} {s t : List Nat} (h : afterLast c s = some t) :
    c ∉ t ∧ ∃ pre, s = pre ++ c :: t := by
  induction s with
  | nil => cases h
  | cons x r ih =>
    unfold afterLast at h
    cases hr : afterLast c r with
    | some t' =>
      rw [hr] at h ih
      injection h with h
      subst h
      obtain ⟨h1, pre, rfl⟩ := ih rfl
      exact ⟨h1, x :: pre, rfl⟩
    | none =>
      rw [hr] at h
      simp only at h
      split at h
      · rename_i hx
        injection h with h
        subst h hx
        exact ⟨afterLast_none.mp hr, [], rfl⟩
      · cases h

theorem lastComponent_argv0 (s : List Nat) : LastComponent s ((afterLast 0x2F s).getD s) := by
  cases h : afterLast 0x2F s with
  | none => exact .plain s (afterLast_none.mp h)
  | some t =>
    obtain ⟨h1, pre, rfl⟩ := afterLast_some h
    exact .path pre t h1

theorem lastComponent_unique {s a b : List Nat} (ha : LastComponent s a) (hb : LastComponent s b) :
    a = b := by
  have key : ∀ (pre pre' a b : List Nat), 0x2F ∉ a → 0x2F ∉ b →
      pre ++ 0x2F :: a = pre' ++ 0x2F :: b → a = b := by
    intro pre
    induction pre with
    | nil =>
      intro pre' a b h1 h2 h
      cases pre' with
      | nil => injection h
      | cons x p =>
        injection h with _ h
        exact absurd (by rw [h]; simp) h1
    | cons y q ih =>
      intro pre' a b h1 h2 h
      cases pre' with
      | nil =>
        injection h with _ h
        exact absurd (by rw [← h]; simp) h2
      | cons x p =>
        injection h with _ h
        exact ih p a b h1 h2 h
  cases ha with
  | plain _ h1 =>
    cases hb with
    | plain => rfl
    | path pre _ h2 => exact absurd (by simp) h1
  | path pre _ h1 =>
    generalize hs : pre ++ 0x2F :: a = s at hb
    cases hb with
    | plain _ h2 => exact absurd (by rw [← hs]; simp) h2
    | path pre' _ h2 => exact key _ _ _ _ h1 h2 hs

/-- A directory of the corpus. -/
def Spec.corpusDir (srcdir name : List Nat) (suffix : String) : List Nat :=
  srcdir ++ 0x2F :: (name ++ str suffix)

theorem corpusDir_eq (srcdir name : List Nat) (suffix : String) :
    srcdir ++ str "/" ++ name ++ str suffix = corpusDir srcdir name suffix := by
  rw [path_eq]
  unfold corpusDir
  rw [List.append_assoc]; rfl

theorem snprintf1024_id {s : List Nat} (h : s.length < 1024) : snprintf1024 s = s :=
  List.take_of_length_le (by omega)

theorem corpus_long {fs : Fs} {dir : List Nat} (h : 1023 ≤ dir.length) : corpus fs dir = [] := by
  unfold corpus
  refine List.filterMap_eq_nil_iff.mpr fun name _ => ?_
  rw [if_neg (fun h' => by have := h'.2; omega)]

/-- A name that is cut off makes no difference: no path of a file in the directory would fit. -/
theorem corpus_cut (fs : Fs) (dir : List Nat) : corpus fs (snprintf1024 dir) = corpus fs dir := by
  by_cases h : dir.length < 1024
  · rw [snprintf1024_id h]
  · rw [corpus_long (dir := dir) (by omega), corpus_long]
    unfold snprintf1024
    rw [List.length_take]; omega

/-- How the whole program ends. -/
def RunsMain (F : Nat → Bool) (L : List Nat) (c : List (List Nat)) (r : List FuzzEv × Option Nat)
    (L' : List Nat) : Prop :=
  (tested r.1).Sublist c ∧
    ((r.2 = none ∧ ∃ k, F k = true) ∨
     (r.2 = some 0 ∧ L' = L ∧ Paired r.1 ∧ ((∀ k, F k = false) → tested r.1 = c)))

theorem tri_fuzzDirs {fs : Fs} {target : List Nat → HeapM FuzzEnd}
    (ht : ∀ data L, Tri F (target data) L (Returns F L))
    (he : NoEmptyFile fs ∨ ∀ k, F k = false) {srcdir argv0 name : List Nat}
    (hn : LastComponent argv0 name) (hl : (corpusDir srcdir name ".in").length < 1024) :
    Tri F (fuzzDirs fs target srcdir argv0) L
      (RunsMain F L (corpus fs (corpusDir srcdir name ".in") ++
        corpus fs (corpusDir srcdir name ".repro"))) := by
  rw [← corpus_cut fs (corpusDir srcdir name ".repro")]
  unfold fuzzDirs
  rw [lastComponent_unique (lastComponent_argv0 argv0) hn]
  simp only
  rw [corpusDir_eq, corpusDir_eq, if_neg (by omega), snprintf1024_id hl]
  refine Tri.bind (tri_testAllFrom ht he _) ?_
  rintro ⟨x, e⟩ L' _ ⟨hsub, h⟩
  rcases h with ⟨h1, h2⟩ | ⟨h1, h2, h3, h4⟩
  · simp only at h1
    subst h1
    exact Tri.pure ⟨List.Sublist.trans hsub (List.sublist_append_left _ _), Or.inl ⟨rfl, h2⟩⟩
  · simp only at h1 h2 h3 h4 hsub
    subst h1 h2
    simp only
    refine Tri.bind (tri_testAllFrom ht he _) ?_
    rintro ⟨y, e⟩ L' _ ⟨hsub', h⟩
    rcases h with ⟨h1, h2⟩ | ⟨h1, h2, h3', h4'⟩
    · simp only at h1
      subst h1
      refine Tri.pure ⟨?_, Or.inl ⟨rfl, h2⟩⟩
      simp only
      rw [tested_append]
      exact hsub.append hsub'
    · simp only at h1 h2 h3' h4' hsub'
      subst h1 h2
      refine Tri.pure ⟨?_, Or.inr ⟨rfl, rfl, h3.append h3', fun hF => ?_⟩⟩
      · simp only
        rw [tested_append]
        exact hsub.append hsub'
      · simp only
        rw [tested_append, h4 hF, h4' hF]

/-- The three targets, as they are run if no allocation fails. -/
inductive Spec.Target (E : Env) (version : List Nat) : (List Nat → HeapM FuzzEnd) → Prop
  | register : Target E version (fuzzRegister (libidn2 E version))
  | toAscii : Target E version (fuzzToAscii (libidn2 E version))
  | toUnicode : Target E version (fuzzToUnicode (libidn2 E version))

theorem tri_target {E : Env} {D : Data} (W : World E D) (U : E.U.Locale) {version : List Nat}
    {target : List Nat → HeapM FuzzEnd} (ht : Target E version target) (hF : ∀ k, F k = false) :
    ∀ data L, Tri F (target data) L (Returns F L) := by
  intro data L
  cases ht with
  | register => exact tri_fuzzRegister W data
  | toAscii => exact tri_fuzzToAscii W U data
  | toUnicode => exact tri_fuzzToUnicode W U (Or.inr hF)

/-- What a run over the corpus should do: exit status 0, the target has been called with every input
in the two directories of the corpus, in order, all files are closed and all memory is freed. -/
def Spec.TestsAll (fs : Fs) (srcdir name : List Nat) (x : HeapM (List FuzzEv × Option Nat))
    (h : Heap) : Prop :=
  ∃ evs h', x h = .val ((evs, some 0), h') ∧ h'.live = h.live ∧ Paired evs ∧
    tested evs = corpus fs (corpusDir srcdir name ".in") ++ corpus fs (corpusDir srcdir name ".repro")

/-- C76: a run without failed allocations, if the name of the first directory has less than 1024
bytes (otherwise see `C76_long`). -/
theorem C76_corpus {E : Env} {D : Data} (W : World E D) (U : E.U.Locale)
    {version : List Nat} {target : List Nat → HeapM FuzzEnd} (ht : Target E version target)
    (fs : Fs) {srcdir argv0 name : List Nat} (hn : LastComponent argv0 name)
    (hl : (corpusDir srcdir name ".in").length < 1024) {h : Heap} (hok : h.Ok)
    (hF : ∀ k, h.fails k = false) (system : List Nat → Int) {valgrind : Option (List Nat)}
    {args : List (List Nat)} (hv : args ≠ [] ∨ valgrind = none ∨ valgrind = some []) :
    TestsAll fs srcdir name (fuzzMain fs target srcdir valgrind system (argv0 :: args)) h := by
  have e : (fuzzMain fs target srcdir valgrind system (argv0 :: args) : HeapM _) =
      fuzzDirs fs target srcdir argv0 := by
    unfold fuzzMain
    cases args with
    | nil =>
      rcases hv with h | rfl | rfl
      · exact absurd rfl h
      · rfl
      · rfl
    | cons a as => rfl
  obtain ⟨⟨evs, r⟩, h', e1, _, _, e4, _⟩ := tri_fuzzDirs (L := h.live) (F := h.fails)
    (tri_target W U ht hF) (Or.inr hF) hn hl h hok rfl rfl
  obtain ⟨_, ⟨_, k, hk⟩ | ⟨h1, h2, h3, h4⟩⟩ := e4
  · rw [hF] at hk; cases hk
  · simp only at h1 h2 h3 h4
    subst h1
    exact ⟨evs, h', by rw [e]; exact e1, h2, h3, h4 hF⟩

/-- C76: failed allocations, for the targets that check theirs and a file system without empty
files: no undefined behaviour; the target is called with inputs of the corpus only. -/
theorem C76_failures {E : Env} {D : Data} (W : World E D) (U : E.U.Locale)
    {version : List Nat} {target : List Nat → HeapM FuzzEnd} (ht : target = fuzzRegister (libidn2 E version) ∨ target = fuzzToAscii (libidn2 E version))
    {fs : Fs} (he : NoEmptyFile fs) {srcdir argv0 name : List Nat} (hn : LastComponent argv0 name)
    (hl : (corpusDir srcdir name ".in").length < 1024) {h : Heap} (hok : h.Ok) :
    ∃ evs s h', fuzzDirs fs target srcdir argv0 h = .val ((evs, s), h') ∧
      (tested evs).Sublist (corpus fs (corpusDir srcdir name ".in") ++
        corpus fs (corpusDir srcdir name ".repro")) ∧
      ((s = none ∧ ∃ k, h.fails k = true) ∨ (s = some 0 ∧ h'.live = h.live ∧ Paired evs)) := by
  obtain ⟨⟨evs, r⟩, h', e1, _, _, e4, _⟩ := tri_fuzzDirs (L := h.live) (F := h.fails)
    (target := target) (fun data L => by
      rcases ht with rfl | rfl
      · exact tri_fuzzRegister W data
      · exact tri_fuzzToAscii W U data) (Or.inl he) hn hl h hok rfl rfl
  obtain ⟨hsub, ⟨h1, hk⟩ | ⟨h1, h2, h3, _⟩⟩ := e4
  · exact ⟨evs, r, h', e1, hsub, Or.inl ⟨h1, hk⟩⟩
  · exact ⟨evs, r, h', e1, hsub, Or.inr ⟨h1, h2, h3⟩⟩

/-- C76: if the name of the first directory is too long, nothing is tested and the exit status is
1. -/
theorem C76_long {m : Type → Type} [CMem m] (fs : Fs) (target : List Nat → m FuzzEnd)
    {srcdir argv0 name : List Nat} (hn : LastComponent argv0 name)
    (hl : 1024 ≤ (corpusDir srcdir name ".in").length) :
    fuzzDirs fs target srcdir argv0 = pure ([], some 1) := by
  unfold fuzzDirs
  rw [lastComponent_unique (lastComponent_argv0 argv0) hn]
  simp only
  rw [corpusDir_eq, if_pos hl]

/-- The other driver: standard input is cut off after 64 KiB, which the targets do not notice,
because they ignore what is longer than 1024 bytes. -/
theorem C76_stdin {m : Type → Type} [CMem m] (E : Env) (version stdin : List Nat) :
    (fuzzStdin (fuzzRegister (libidn2 E version)) stdin : m FuzzEnd) = fuzzRegister (libidn2 E version) stdin ∧
    (fuzzStdin (fuzzToAscii (libidn2 E version)) stdin : m FuzzEnd) = fuzzToAscii (libidn2 E version) stdin ∧
    (fuzzStdin (fuzzToUnicode (libidn2 E version)) stdin : m FuzzEnd) = fuzzToUnicode (libidn2 E version) stdin := by
  unfold fuzzStdin
  by_cases h : stdin.length ≤ 65536
  · rw [List.take_of_length_le h]
    exact ⟨rfl, rfl, rfl⟩
  · have h1 : (stdin.take 65536).length > 1024 := by rw [List.length_take]; omega
    have h2 : stdin.length > 1024 := by omega
    unfold fuzzRegister fuzzToAscii fuzzToUnicode
    simp only [if_pos h1, if_pos h2, and_self]

/-- C76: with TESTS_VALGRIND set and no argument, the driver does nothing but start itself under
that command with the variable empty, and reports a failure of it; if the command does not fit, that
is a failure. -/
theorem C76_valgrind {m : Type → Type} [CMem m] (fs : Fs) (target : List Nat → m FuzzEnd)
    (srcdir v p : List Nat) (hv : v ≠ []) (system : List Nat → Int) :
    ∃ evs st, fuzzMain fs target srcdir (some v) system [p] = pure (evs, some st) ∧
      ((v ++ p).length ≤ 1006 → evs = [.command (str "TESTS_VALGRIND= " ++ v ++ str " " ++ p)] ∧
        (st = 0 ↔ system (str "TESTS_VALGRIND= " ++ v ++ str " " ++ p) = 0)) ∧
      (1006 < (v ++ p).length → evs = [] ∧ st = 1) ∧ st ≤ 1 := by
  cases v with
  | nil => exact absurd rfl hv
  | cons c v =>
    have hl : (str "TESTS_VALGRIND= " ++ (c :: v) ++ str " " ++ p).length =
        17 + ((c :: v) ++ p).length := by
      have h1 : (str "TESTS_VALGRIND= ").length = 16 := by decide
      have h2 : (str " ").length = 1 := by decide
      simp only [List.length_append, h1, h2]
      omega
    unfold fuzzMain
    simp only [hl]
    split
    · exact ⟨_, _, rfl, fun _ => by omega, fun _ => ⟨rfl, by omega⟩, by omega⟩
    · refine ⟨_, _, rfl, fun _ => ⟨rfl, ?_⟩, fun _ => by omega, ?_⟩
      · split <;> simp_all
      · split <;> omega

/-! ### Where it fails, and examples -/

/-- A file system with an input, a hidden file, one that cannot be read, and an empty one. -/
def smallFs : Fs where
  dir d :=
    if d = str "s/t.in" then some [str ".", str "..", str "1", str "2", str "3"]
    else if d = str "s/t.repro" then some [str "4", str "5"] else none
  file f :=
    if f = str "s/t.in/1" then .file 2 (some [0x61, 0x62, 0x63])
    else if f = str "s/t.in/2" then .noOpen
    else if f = str "s/t.in/3" then .file 2 (some [0x61])
    else if f = str "s/t.repro/4" then .file 0 (some [])
    else if f = str "s/t.repro/5" then .file 3 (some [0x61, 0xC3, 0xA4])
    else .noStat

/-- The end of a run. -/
def endOf {α : Type} : Out (α × Heap) → Option (α × List Nat)
  | .val (r, h) => some (r, h.live)
  | .ub => none

theorem endOf_none {α : Type} {o : Out (α × Heap)} (h : endOf o = none) : o = .ub := by
  cases o with
  | val r => cases h
  | ub => rfl

/-- The run of the register target over that corpus where the allocation number `k` fails. -/
def smallRun (k : Nat) : Option ((List FuzzEv × Option Nat) × List Nat) :=
  endOf ((fuzzMain smallFs (fuzzRegister (libidn2 utf8Env [0x32])) (str "s") none (fun _ => 0) [str "./t"] : HeapM _)
    (failing k))

example : corpus smallFs (corpusDir (str "s") (str "t") ".in") = [[0x61, 0x62]] ∧
    corpus smallFs (corpusDir (str "s") (str "t") ".repro") = [[], [0x61, 0xC3, 0xA4]] ∧
    LastComponent (str "./t") (str "t") :=
  ⟨by decide, by decide, .path (str ".") (str "t") (by decide)⟩

example : smallRun 100 = some (([.opened (str "s/t.in/1"), .test [0x61, 0x62] (str "s/t.in/1"),
    .closed, .openFailed (str "s/t.in/2"), .opened (str "s/t.in/3"), .readFailed (str "s/t.in/3"),
    .closed, .opened (str "s/t.repro/4"), .test [] (str "s/t.repro/4"), .closed,
    .opened (str "s/t.repro/5"), .test [0x61, 0xC3, 0xA4] (str "s/t.repro/5"), .closed], some 0),
    [0]) := by decide +kernel

/-- The result of the allocation of the driver is not checked: for an empty file a null pointer is
passed on to the target, which copies from it. -/
theorem C76_empty_undefined : ∃ h : Heap, h.Ok ∧
    (fuzzMain smallFs (fuzzRegister (libidn2 utf8Env [0x32])) (str "s") none (fun _ => 0) [str "./t"] : HeapM _) h =
      .ub := by
  refine ⟨failing 7, ⟨by simp [failing], by simp [failing]⟩, ?_⟩
  have : smallRun 7 = none := by decide +kernel
  unfold smallRun at this
  exact endOf_none this

example : (fuzzMain smallFs (fuzzRegister (libidn2 utf8Env [0x32])) (str "s") (some (str "valgrind -q"))
      (fun _ => 256) [str "./t"] : Out _) =
    pure ([.command (str "TESTS_VALGRIND= valgrind -q ./t")], some 1) := by decide +kernel

-- a failure elsewhere: the other inputs are still tested, or an assertion fails
example : (smallRun 1).map (fun r => (tested r.1.1, r.1.2)) =
      some ([[], [0x61, 0xC3, 0xA4]], some 0) ∧
    (smallRun 2).map (fun r => (tested r.1.1, r.1.2)) = some ([[0x61, 0x62]], none) := by
  decide +kernel

end Idn2
