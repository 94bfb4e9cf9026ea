import Verif.Proof.TestLookup
import Verif.Props.LookupExact

/-
Property C93: the conformance test reads tests/IdnaTest.txt as its format says.
Property C94: the lookup tests fail when lookup deviates from their tables.
-/

namespace Idn2.TestLookup
open Spec Spec.IdnaTest

/-- `t'` follows from `t` by `n` checks, `k` of which fail. -/
def Adds (t t' : Tally) (n k : Nat) : Prop :=
  t'.failed = t.failed + k ∧ t'.ok + t'.failed = t.ok + t.failed + n

theorem adds_good (t : Tally) : Adds t t.good 1 0 := by
  unfold Adds Tally.good
  simp only
  omega

theorem adds_bad (t : Tally) : Adds t t.bad 1 1 := by
  unfold Adds Tally.bad
  exact ⟨rfl, by simp only; omega⟩

theorem Adds.trans {t t' t'' : Tally} {n k n' k' : Nat} (h : Adds t t' n k) (h' : Adds t' t'' n' k') :
    Adds t t'' (n + n') (k + k') := by
  unfold Adds at *
  omega

theorem check_transitional (lk : Lib) (s e : List Nat) (x : Bool) (t : Tally) :
    Adds t (check_toASCII lk s e true x t) 1 0 := by
  unfold check_toASCII
  split
  · split
    · exact adds_good t
    · simp only [Bool.not_true, Bool.false_and, Bool.false_eq_true, if_false]
      exact adds_good t
  · simp only [Bool.not_true, Bool.false_and, Bool.false_eq_true, if_false]
    exact adds_good t

theorem check_nontransitional (lk : Lib) (old : Bool) (x : Test) (hr : x.Ran old)
    (hn : x.nontransitional = true) (t : Tally) :
    Adds t (check_toASCII lk (utf8s x.source) x.wanted false (decide (x.nv8 ≠ [])) t) 1
      (if x.Missed lk old then 1 else 0) := by
  have hb : x.error = false ↔ x.wanted.head? ≠ some 0x5B := by
    unfold Test.error; simp
  unfold check_toASCII
  simp only [Bool.false_eq_true, if_false, Bool.not_false, Bool.true_and]
  show Adds t (match lk (utf8s x.source) 8 with | .error _ => _ | .ok ace => _) _ _
  cases hl : lk (utf8s x.source) 8 with
  | error e =>
    simp only
    by_cases hv : x.nv8 = []
    · simp only [hv, ne_eq, not_true_eq_false, decide_false, Bool.false_eq_true, if_false,
        decide_eq_true_eq]
      by_cases he : x.error = false
      · rw [if_pos (hb.mp he), if_pos]
        · exact adds_bad t
        · refine ⟨hr, hn, he, ?_⟩
          unfold Test.Meets
          rw [hl, he]
          simp [hv]
      · rw [if_neg (fun h => he (hb.mpr h)), if_neg (fun h => he h.2.2.1)]
        exact adds_good t
    · simp only [ne_eq, hv, not_false_eq_true, decide_true, if_true]
      rw [if_neg]
      · exact adds_good t
      · rintro ⟨_, _, he, hm⟩
        apply hm
        unfold Test.Meets
        rw [he, hl]
        exact .inr ⟨hv, e, rfl⟩
  | ok ace =>
    simp only
    by_cases he : x.error = false
    · by_cases ha : x.wanted = ace
      · simp only [ha, ne_eq, not_true_eq_false, decide_false, Bool.and_false, Bool.false_eq_true,
          if_false]
        rw [if_neg]
        · exact adds_good t
        · rintro ⟨_, _, _, hm⟩
          apply hm
          unfold Test.Meets
          rw [he, hl]
          exact .inl (by rw [ha])
      · have := hb.mp he
        simp only [this, ha, ne_eq, not_false_eq_true, decide_true, Bool.and_self, if_true]
        rw [if_pos]
        · exact adds_bad t
        · refine ⟨hr, hn, he, ?_⟩
          unfold Test.Meets
          rw [he, hl]
          simp [Ne.symm ha]
    · have : x.wanted.head? = some 0x5B := Classical.byContradiction fun h => he (hb.mpr h)
      simp only [this, ne_eq, not_true_eq_false, decide_false, Bool.false_and, Bool.false_eq_true,
        if_false]
      rw [if_neg (fun h => he h.2.2.1)]
      exact adds_good t

theorem checkLine_adds (lk : Lib) (old : Bool) (x : Test) (hp : x.proper) (t : Tally) :
    Adds t (checkLine lk old x.type (utf8s x.source) x.toUnicode x.toASCII x.nv8 t)
      (if x.Ran old then x.calls else 0) (if x.Missed lk old then 1 else 0) := by
  have hw : (if x.toASCII = [] then if x.toUnicode = [] then utf8s x.source else x.toUnicode
      else x.toASCII) = x.wanted := by
    unfold Test.wanted
    by_cases h1 : x.toASCII = [] <;> by_cases h2 : x.toUnicode = [] <;> simp [h1, h2]
  unfold checkLine
  simp only [hw]
  by_cases hr : x.Ran old
  · have : (old && decide (x.wanted = skipped)) = false := by
      have := hr.2
      cases old with
      | false => rfl
      | true =>
        simp only [true_and] at this
        simp only [Bool.true_and, decide_eq_false_iff_not]
        exact this
    rw [this, if_pos hr]
    simp only [Bool.false_eq_true, if_false]
    have hno : x.nontransitional = false → ¬ x.Missed lk old := by
      intro h h'
      rw [h'.2.1] at h
      cases h
    unfold Test.calls
    split
    · next h =>
      have h1 : x.transitional = true := by unfold Test.transitional; simp [h]
      have h2 : x.nontransitional = true := by unfold Test.nontransitional; simp [h]
      rw [h1, h2]
      have := (check_transitional lk (utf8s x.source) x.wanted (decide (x.nv8 ≠ [])) t).trans
        (check_nontransitional lk old x hr h2 _)
      rw [Nat.zero_add] at this
      exact this
    · next h0 =>
      split
      · next h =>
        have h1 : x.transitional = true := by unfold Test.transitional; simp [h]
        have h2 : x.nontransitional = false := by unfold Test.nontransitional; simp [h]
        rw [h1, h2, if_neg (hno h2)]
        exact check_transitional lk (utf8s x.source) x.wanted (decide (x.nv8 ≠ [])) t
      · next h1' =>
        have h1 : x.transitional = false := by unfold Test.transitional; simp [h0, h1']
        split
        · next h =>
          have h2 : x.nontransitional = true := by unfold Test.nontransitional; simp [h]
          rw [h1, h2]
          exact check_nontransitional lk old x hr h2 t
        · next h =>
          have h2 : x.nontransitional = false := by unfold Test.nontransitional; simp [h0, h]
          rw [h1, h2, if_neg (hno h2)]
          exact ⟨rfl, rfl⟩
  · have : (old && decide (x.wanted = skipped)) = true := by
      refine Classical.byContradiction fun h => hr ⟨hp, ?_⟩
      rintro ⟨h1, h2⟩
      apply h
      rw [h1, show x.wanted = skipped from h2]
      rfl
    rw [if_pos this, if_neg hr, if_neg (fun h => hr h.1)]
    exact ⟨rfl, rfl⟩

/-- C93, a line: it is read as the format says. -/
theorem C93_line (lk : Lib) (old : Bool) {line : List Nat} {o : Option Test} (h : Line line o)
    (t : Tally) :     ∃ t', scanLine lk old (line ++ [10]) t = .val t' ∧
      Adds t t' (callsOf old o) (missesOf lk old o) := by
  unfold scanLine callsOf missesOf
  have sp : ∀ b, Space b → b ≠ 0 := by unfold Space; omega
  rw [stripEol_eq]
  cases h with
  | blank h =>
    have h0 : 0 ∉ line ++ [10] := by
      intro h0
      rcases List.mem_append.mp h0 with h0 | h0
      · exact sp 0 (h 0 h0) rfl
      · simp at h0
    rw [lineStr_eq h0]
    have := dropWhile_all (a := line ++ [10]) (x := []) (by
      intro c hc
      rcases List.mem_append.mp hc with hc | hc
      · exact h c hc
      · rw [List.mem_singleton] at hc; subst hc; unfold Space; omega) (by simp)
    rw [List.append_nil] at this
    rw [this]
    exact ⟨t, rfl, by simp [Adds]⟩
  | comment a r ha e =>
    subst e
    have hl : lineStr (a ++ 0x23 :: r ++ [10]) = a ++ 0x23 :: lineStr (r ++ [10]) := by
      unfold lineStr
      rw [List.append_assoc, List.takeWhile_append_of_pos]
      · simp
      · intro b hb
        simpa using sp b (ha b hb)
    rw [hl, dropWhile_all ha (by
      intro c hc
      cases hc
      unfold Space
      omega)]
    exact ⟨t, rfl, by simp [Adds]⟩
  | test a r s u b cols h0 ha e hb hb' hc hs hcol hw hu =>
    have h0' : 0 ∉ line ++ [10] := by
      intro hh
      rcases List.mem_append.mp hh with hh | hh
      · exact h0 hh
      · simp at hh
    rw [lineStr_eq h0']
    have e' : line ++ [10] = a ++ (b :: (r ++ [10])) := by rw [e]; simp
    have hc' : Columns (b :: (r ++ [10])) cols :=
      columns_left ha (e' ▸ columns_newline hc)
    rw [e', dropWhile_all ha (by
      intro c hc
      cases hc
      exact hb)]
    simp only [if_neg hb']
    unfold test_IdnaTest
    obtain ⟨c1, r1⟩ := nextField_rest (.inl hc')
    obtain ⟨c2, r2⟩ := nextField_rest r1
    obtain ⟨c3, r3⟩ := nextField_rest r2
    obtain ⟨c4, r4⟩ := nextField_rest r3
    obtain ⟨c5, r5⟩ := nextField_rest r4
    simp only [column_tail] at c2 c3 c4 c5
    simp only [c1, c2, c3, c4, c5]
    rw [hcol, decodeIdnaTest_written hs hw hu]
    by_cases hp : ∀ c ∈ u, isScalar c
    · rw [if_pos hp]
      refine ⟨_, rfl, ?_⟩
      exact checkLine_adds lk old ⟨column cols 0, u, column cols 2, column cols 3, column cols 4⟩ hp t
    · rw [if_neg hp]
      refine ⟨t, rfl, ?_⟩
      rw [if_neg, if_neg]
      · exact ⟨rfl, rfl⟩
      · exact fun h => hp h.1.1
      · exact fun h => hp h.1

/-- C93, the file: every line is read as the format says; the number of checks is that of the
lookups asked for, and of these fail exactly those missed. -/
theorem C93_reads (lk : Lib) (old : Bool) {lines : List (List Nat)} {os : List (Option Test)}
    (hl : ∀ l ∈ lines, 10 ∉ l) (h : Each Line lines os) (t : Tally) :
    ∃ t', scanFile lk old (textOf lines) t = .val t' ∧
      Adds t t' ((os.map (callsOf old)).sum)
        ((os.map (missesOf lk old)).sum) := by
  induction h generalizing t with
  | nil =>
    refine ⟨t, ?_, rfl, rfl⟩
    rw [scanFile, dif_neg (by decide)]
    rfl
  | cons h1 h2 ih =>
    rename_i l o ls os
    have e : textOf (l :: ls) = l ++ 10 :: textOf ls := by
      unfold textOf
      simp
    rw [e, scanFile, getline_cons (hl l List.mem_cons_self), dif_pos (by simp)]
    obtain ⟨t1, e1, a1⟩ := C93_line lk old h1 t
    obtain ⟨t2, e2, a2⟩ := ih (fun l hl' => hl l (List.mem_cons_of_mem _ hl')) t1
    refine ⟨t2, ?_, ?_⟩
    · simp only [e1]
      exact e2
    · have := a1.trans a2
      simp only [List.map_cons, List.sum_cons]
      exact this

/-! ### The exit status -/

theorem checkRow_failed (lk : Lib) (row : Row) (f : Nat) (t : Tally) :
    (checkRow lk row f t).failed = t.failed ∧
      (RowMeets row.out row.rc (lk row.input f) ∨ lk row.input f = .error .encodingError) ∨
    (checkRow lk row f t).failed = t.failed + 1 ∧
      ¬ (RowMeets row.out row.rc (lk row.input f) ∨ lk row.input f = .error .encodingError) := by
  unfold checkRow RowMeets
  cases hl : lk row.input f with
  | error e =>
    simp only
    rcases hr : row.rc with _ | _ | e'
    · by_cases he : e = .encodingError <;> simp [he, Tally.good]
    · by_cases he : e = .encodingError <;> simp [he, Tally.bad]
    · by_cases he : e = .encodingError <;> by_cases h' : e = e' <;>
        simp_all [Tally.good, Tally.bad]
  | ok n =>
    simp only
    rcases hr : row.rc with _ | _ | e'
    · by_cases hn : n = row.out <;> simp [hn, Tally.good, Tally.bad]
    · by_cases hn : n = row.out <;> simp [hn, Tally.good, Tally.bad]
    · simp [Tally.bad]

theorem and_mask {f m : Nat} {i j : Nat} (hm : m = 2 ^ i ||| 2 ^ j) :
    f &&& m = 0 ↔ f.testBit i = false ∧ f.testBit j = false := by
  subst hm
  constructor
  · intro h
    have : ∀ k, (f &&& (2 ^ i ||| 2 ^ j)).testBit k = false := by rw [h]; simp
    have hi := this i
    have hj := this j
    simp only [Nat.testBit_and, Nat.testBit_or, Nat.testBit_two_pow_self, Bool.true_or,
      Bool.or_true, Bool.and_true] at hi hj
    exact ⟨hi, hj⟩
  · rintro ⟨hi, hj⟩
    apply Nat.eq_of_testBit_eq
    intro k
    simp only [Nat.testBit_and, Nat.testBit_or, Nat.zero_testBit, Nat.testBit_two_pow]
    by_cases h1 : i = k
    · subst h1; simp [hi]
    · by_cases h2 : j = k
      · subst h2; simp [hj]
      · simp [h1, h2]

theorem testRow_eq (lk : Lib) (row : Row) (t : Tally) :
    testRow lk row t = (tried row.flags).foldl (fun t f => checkRow lk row f t) t := by
  have h1 : row.flags &&& (IDN2_NONTRANSITIONAL ||| IDN2_TRANSITIONAL) = 0 ↔
      row.flags.testBit 2 = false ∧ row.flags.testBit 3 = false := and_mask (by decide)
  have h2 : row.flags &&& (IDN2_NO_TR46 ||| IDN2_TRANSITIONAL) = 0 ↔
      row.flags.testBit 2 = false ∧ row.flags.testBit 6 = false := and_mask (by decide)
  unfold testRow tried
  simp only [h1, h2]
  by_cases g1 : row.flags.testBit 2 = false ∧ row.flags.testBit 3 = false <;>
    by_cases g2 : row.flags.testBit 2 = false ∧ row.flags.testBit 6 = false
  · simp only [if_pos g1, if_pos g2]; rfl
  · simp only [if_pos g1, if_neg g2]; rfl
  · simp only [if_neg g1, if_pos g2]; rfl
  · simp only [if_neg g1, if_neg g2]; rfl

/-- A row of the table passes with the flags `f`. -/
def Passes (lk : Lib) (row : Row) (f : Nat) : Prop :=
  RowMeets row.out row.rc (lk row.input f) ∨ lk row.input f = .error .encodingError

theorem foldl_zero {α : Type} {step : Tally → α → Tally} {P : α → Prop}
    (h : ∀ t a, (step t a).failed = t.failed ∧ P a ∨ t.failed < (step t a).failed ∧ ¬ P a)
    (l : List α) (t : Tally) :
    (l.foldl step t).failed = t.failed ∧ (∀ a ∈ l, P a) ∨
      t.failed < (l.foldl step t).failed ∧ ¬ ∀ a ∈ l, P a := by
  induction l generalizing t with
  | nil => simp
  | cons a l ih =>
    rw [List.foldl_cons]
    rcases h t a with ⟨h1, h2⟩ | ⟨h1, h2⟩ <;> rcases ih (step t a) with ⟨h3, h4⟩ | ⟨h3, h4⟩
    · left
      refine ⟨by omega, ?_⟩
      intro b hb
      rcases List.mem_cons.mp hb with rfl | hb
      · exact h2
      · exact h4 b hb
    · right
      exact ⟨by omega, fun hh => h4 fun b hb => hh b (List.mem_cons_of_mem _ hb)⟩
    · right
      exact ⟨by omega, fun hh => h2 (hh a List.mem_cons_self)⟩
    · right
      exact ⟨by omega, fun hh => h2 (hh a List.mem_cons_self)⟩

theorem testRow_failed (lk : Lib) (t : Tally) (row : Row) :
    (testRow lk row t).failed = t.failed ∧ (∀ f ∈ tried row.flags, Passes lk row f) ∨
    t.failed < (testRow lk row t).failed ∧ ¬ ∀ f ∈ tried row.flags, Passes lk row f := by
  rw [testRow_eq]
  refine foldl_zero (step := fun t f => checkRow lk row f t) (fun t f => ?_) _ t
  rcases checkRow_failed lk row f t with h | ⟨h1, h2⟩
  · exact .inl h
  · exact .inr ⟨by omega, h2⟩

/-- C94, what the program checks: it ends with status 0 just in case the file can be opened, the
single calls succeed, each call for a row of the table has the outcome given there or
IDN2_ENCODING_ERROR, and each nontransitional lookup of the file for which an ASCII form is given
has this result, or is refused if the fifth column is not blank. -/
theorem C94_status_partial (lk : Lib) (old : Bool) (rows : List Row) (special : Nat)
    {lines : List (List Nat)} {os : List (Option Test)} (hl : ∀ l ∈ lines, 10 ∉ l)
    (h : Each Line lines os) :
    main lk old rows special none = .val (1, none) ∧
    ∃ c y, main lk old rows special (some (textOf lines)) = .val (c, y) ∧ (c = 0 ∨ c = 1) ∧
      (c = 0 ↔ special = 0 ∧
        (∀ row ∈ rows, ∀ f ∈ tried row.flags, RowMeets row.out row.rc (lk row.input f) ∨
          lk row.input f = .error .encodingError) ∧
        ∀ x, some x ∈ os → x.Ran old → x.nontransitional = true → x.error = false →
          x.Meets (lk (utf8s x.source) 8)) := by
  refine ⟨rfl, ?_⟩
  obtain ⟨t', e, a1, -⟩ := C93_reads lk old hl h (test_homebrewed lk rows special ⟨0, 0⟩)
  refine ⟨if t'.failed ≠ 0 then 1 else 0, some (t'.failed, t'.ok + t'.failed), ?_, by split <;> simp, ?_⟩
  · unfold main
    simp only [e]
    rfl
  · have hm : (os.map (missesOf lk old)).sum = 0 ↔ ∀ x, some x ∈ os → ¬ x.Missed lk old := by
      clear h a1 e hl
      induction os with
      | nil => simp
      | cons o os ih =>
        rw [List.map_cons, List.sum_cons, Nat.add_eq_zero_iff, ih]
        constructor
        · rintro ⟨h1, h2⟩ x hx
          rcases List.mem_cons.mp hx with rfl | hx
          · intro hh
            simp [missesOf, hh] at h1
          · exact h2 x hx
        · intro hh
          refine ⟨?_, fun x hx => hh x (List.mem_cons_of_mem _ hx)⟩
          cases o with
          | none => rfl
          | some x =>
            have := hh x List.mem_cons_self
            simp [missesOf, this]
    have h1 : (if t'.failed ≠ 0 then 1 else 0) = 0 ↔ t'.failed = 0 := by
      by_cases h : t'.failed = 0 <;> simp [h]
    have h2 : (test_homebrewed lk rows special ⟨0, 0⟩).failed = 0 ↔
        special = 0 ∧ ∀ row ∈ rows, ∀ f ∈ tried row.flags, Passes lk row f := by
      unfold test_homebrewed
      simp only
      rcases foldl_zero (step := fun t row => testRow lk row t) (testRow_failed lk) rows ⟨0, 0⟩ with
        ⟨g1, g2⟩ | ⟨g1, g2⟩
      · rw [g1]
        constructor
        · intro h; exact ⟨by simp only at h; omega, g2⟩
        · rintro ⟨h, -⟩; rw [h]
      · constructor
        · intro h; simp only at g1; omega
        · rintro ⟨-, h⟩; exact absurd h g2
    rw [h1, a1, Nat.add_eq_zero_iff, h2, hm, and_assoc]
    refine and_congr_right fun _ => and_congr_right fun _ => ?_
    constructor
    · intro hh x hx g1 g2 g3
      exact Classical.byContradiction fun g4 => hh x hx ⟨g1, g2, g3, g4⟩
    · rintro hh x hx ⟨g1, g2, g3, g4⟩
      exact g4 (hh x hx g1 g2 g3)

theorem checkRow_adds (lk : Lib) (row : Row) (f : Nat) (t : Tally) :
    Adds t (checkRow lk row f t) (if Skips row.rc (lk row.input f) then 0 else 1)
      (if RowMeets row.out row.rc (lk row.input f) ∨ lk row.input f = .error .encodingError
        then 0 else 1) := by
  have hz : Adds t t 0 0 := ⟨rfl, rfl⟩
  have hg := adds_good t
  have hb := adds_bad t
  unfold checkRow RowMeets Skips
  cases hl : lk row.input f with
  | error e =>
    simp only
    rcases hr : row.rc with _ | _ | e'
    · by_cases he : e = .encodingError <;> simp [he, hz, hg]
    · by_cases he : e = .encodingError <;> simp [he, hz, hb]
    · by_cases he : e = .encodingError
      · by_cases h' : e = e'
        · subst h'; subst he; simp [hg]
        · subst he
          have h2 : ¬ e' = .encodingError := fun h => h' h.symm
          simp [h', h2, hz]
      · by_cases h' : e = e'
        · subst h'; simp [he, hg]
        · simp [h', he, hb]
  | ok n =>
    simp only
    rcases hr : row.rc with _ | _ | e'
    · by_cases hn : n = row.out <;> simp [hn, hg, hb]
    · by_cases hn : n = row.out <;> simp [hn, hg, hb]
    · simp [hb]

theorem foldl_adds {α : Type} {step : Tally → α → Tally} {n k : α → Nat}
    (h : ∀ t a, Adds t (step t a) (n a) (k a)) (l : List α) (t : Tally) :
    Adds t (l.foldl step t) (l.map n).sum (l.map k).sum := by
  induction l generalizing t with
  | nil => exact ⟨rfl, rfl⟩
  | cons a l ih =>
    simp only [List.foldl_cons, List.map_cons, List.sum_cons]
    exact (h t a).trans (ih _)

/-- The number of tests of a row. -/
def rowTests (lk : Lib) (row : Row) : Nat :=
  ((tried row.flags).map fun f => if Skips row.rc (lk row.input f) then 0 else 1).sum

/-- The number of those that fail. -/
def rowFails (lk : Lib) (row : Row) : Nat :=
  ((tried row.flags).map fun f =>
    if RowMeets row.out row.rc (lk row.input f) ∨ lk row.input f = .error .encodingError
    then 0 else 1).sum

/-- C94, the last line printed: it counts the seven single calls, the lookups for the rows of the
table but for strings found to be wrongly encoded, and the lookups asked for in the file; and of
these the failed ones. -/
theorem C94_summary (lk : Lib) (old : Bool) (rows : List Row) {special : Nat} (h7 : special ≤ 7)
    {lines : List (List Nat)} {os : List (Option Test)} (hl : ∀ l ∈ lines, 10 ∉ l)
    (h : Each Line lines os) :
    ∃ c, main lk old rows special (some (textOf lines)) = .val (c, some
      (special + (rows.map (rowFails lk)).sum + (os.map (missesOf lk old)).sum,
        7 + (rows.map (rowTests lk)).sum + (os.map (callsOf old)).sum)) := by
  obtain ⟨t', e, a1, a2⟩ := C93_reads lk old hl h (test_homebrewed lk rows special ⟨0, 0⟩)
  obtain ⟨b1, b2⟩ := foldl_adds (step := fun t row => testRow lk row t) (n := rowTests lk)
    (k := rowFails lk) (fun t row => by
      rw [testRow_eq]
      exact foldl_adds (step := fun t f => checkRow lk row f t) (fun t f => checkRow_adds lk row f t)
        _ t) rows ⟨0, 0⟩
  have h1 : t'.failed = special + (rows.map (rowFails lk)).sum + (os.map (missesOf lk old)).sum := by
    rw [a1]
    unfold test_homebrewed
    simp only at b1 ⊢
    omega
  have h2 : t'.ok + t'.failed =
      7 + (rows.map (rowTests lk)).sum + (os.map (callsOf old)).sum := by
    rw [a2]
    unfold test_homebrewed
    simp only at b2 ⊢
    omega
  refine ⟨if t'.failed ≠ 0 then 1 else 0, ?_⟩
  unfold main
  simp only [e]
  rw [← h1, ← h2]
  rfl

/-- One row, which is tried in three modes, and a file with nothing in it: ten tests.  The row asks
for another result, so three tests fail. -/
example : main (fun s _ => .ok s) false [⟨[0x61], [0x62], some none, 0⟩] 0 (some []) =
    .val (1, some (3, 10)) := by
  simp [main, scanFile, getline, test_homebrewed, testRow, checkRow, Tally.bad, IDN2_NONTRANSITIONAL,
    IDN2_TRANSITIONAL, IDN2_NO_TR46]

/-- The library itself. -/
def libOf (E : Env) : Lib := fun s f =>
  match (idn2_lookup_u8 E (some s) (some (.old 0)) f : Out _) with
  | .val (none, some (.buf _ n)) => .ok n
  | .val (some e, _) => .error e
  | _ => .error .malloc

/-- C94 speaks of the library, too. -/
theorem C94_library {E : Env} {D : Data} (W : World E D) (f : Nat) {s : List Nat} (h0 : 0 ∉ s) :
    Lookup D E.U f s (libOf E s f) := by
  obtain ⟨r, hr, -⟩ := C64_unique W f h0
  have h := (C64_lookup W f h0 r).mpr hr
  have : libOf E s f = r := by
    unfold libOf
    cases r with
    | ok n => rw [show (idn2_lookup_u8 E (some s) (some (.old 0)) f : Out _) = _ from h]
    | error e => rw [show (idn2_lookup_u8 E (some s) (some (.old 0)) f : Out _) = _ from h]
  rw [this]
  exact hr

/-! ### Cases -/

/-- `\u00E4\uD83D\uDE00x` stands for U+00E4, U+1F600 and "x"; the line with `\uD83D` by itself is left
out. -/
example : Written ([0x5C, 0x75, 0x30, 0x30, 0x45, 0x34] ++ ([0x5C, 0x75, 0x44, 0x38, 0x33, 0x44] ++
      [0x5C, 0x75, 0x44, 0x45, 0x30, 0x30] ++ [0x78])) [0xE4, 0x1F600, 0x78] ∧
    decodeIdnaTest ([0x5C, 0x75, 0x30, 0x30, 0x45, 0x34, 0x5C, 0x75, 0x44, 0x38, 0x33, 0x44, 0x5C,
      0x75, 0x44, 0x45, 0x30, 0x30, 0x78]) = .val (some (utf8s [0xE4, 0x1F600, 0x78])) ∧
    decodeIdnaTest [0x61, 0x5C, 0x75, 0x44, 0x38, 0x33, 0x44] = .val none :=
  ⟨.escape 0xE4 _ _ (by decide) (by unfold High; omega)
    (.pair 0x1F600 _ _ (by decide) (by decide) (.plain 0x78 _ _ (.inl (by decide)) .nil)),
    by decide +kernel, by decide +kernel⟩

/-- An escape that is cut off is read past its end, or swallows the end of the string. -/
example : decodeIdnaTest [0x5C, 0x75, 0x31, 0x32] = .ub ∧
    decodeIdnaTest [0x5C, 0x75, 0x31, 0x32, 0x33] = .ub := by decide +kernel

/-- Refuses "c" as wrongly encoded and everything in transitional mode; leaves the rest unchanged. -/
def badLib : Lib := fun s f =>
  if s = [0x63] then .error .encodingError else if f = 4 then .error .bidi else .ok s

/-- A wrong result of a nontransitional lookup is counted, a transitional one is not. -/
example : checkLine (fun _ _ => .ok [0x7A]) false [0x4E] [0x61] [] [] [] ⟨5, 0⟩ = ⟨5, 1⟩ ∧
    checkLine (fun _ _ => .ok [0x7A]) false [0x42] [0x61] [] [] [] ⟨5, 0⟩ = ⟨6, 1⟩ ∧
    checkLine (fun _ _ => .ok [0x7A]) false [0x54] [0x61] [] [] [] ⟨5, 0⟩ = ⟨6, 0⟩ := by decide

theorem trimmed_self {f : List Nat} (h1 : ∀ c, f.head? = some c → ¬ Space c)
    (h2 : ∀ c, f.getLast? = some c → ¬ Space c) : Trimmed f f :=
  ⟨[], [], by simp, by simp, by simp, h1, h2⟩

/-- C94 fails: with `badLib` in place of lookup the program ends with status 0, although a row of
the table, a transitional lookup and a name that should be refused are not as asked for.  The lines
are "T;a" and "N;b;;[V5]". -/
theorem C94_violated : ∃ (row : Row) (x y : Test) (lines : List (List Nat)),
    Each Line lines [some x, some y] ∧
    (∃ z, main badLib false [row] 0 (some (textOf lines)) = .val (0, z)) ∧
    ¬ RowMeets row.out row.rc (badLib row.input row.flags) ∧
    x.Ran false ∧ x.transitional = true ∧ ¬ x.Meets (badLib (utf8s x.source) 4) ∧
    y.Ran false ∧ y.nontransitional = true ∧ ¬ y.Meets (badLib (utf8s y.source) 8) := by
  have hE : Each Line [[0x54, 0x3B, 0x61], [0x4E, 0x3B, 0x62, 0x3B, 0x3B, 0x5B, 0x56, 0x35, 0x5D]]
      [some ⟨[0x54], [0x61], [], [], []⟩, some ⟨[0x4E], [0x62], [], [0x5B, 0x56, 0x35, 0x5D], []⟩] := by
    have sp : ∀ c, c > 32 → ¬ Space c := by unfold Space; omega
    refine .cons ?_ (.cons ?_ .nil)
    · refine .test [] [0x3B, 0x61] [0x61] [0x61] 0x54 [[0x54], [0x61]] (by decide) (by simp) rfl
        (sp _ (by decide)) (by decide) ⟨[[0x54], [0x61]], [], by decide, by simp, .inl rfl, by decide, ?_⟩
        (by decide) (by decide) (.plain _ _ _ (.inl (by decide)) .nil) (by decide)
      refine .cons (trimmed_self ?_ ?_) (.cons (trimmed_self ?_ ?_) .nil) <;>
        (intro c hc; cases hc; exact sp _ (by decide))
    · refine .test [] [0x3B, 0x62, 0x3B, 0x3B, 0x5B, 0x56, 0x35, 0x5D] [0x62] [0x62] 0x4E
        [[0x4E], [0x62], [], [0x5B, 0x56, 0x35, 0x5D]] (by decide) (by simp) rfl
        (sp _ (by decide)) (by decide)
        ⟨[[0x4E], [0x62], [], [0x5B, 0x56, 0x35, 0x5D]], [], by decide, by simp, .inl rfl, by decide, ?_⟩
        (by decide) (by decide) (.plain _ _ _ (.inl (by decide)) .nil) (by decide)
      refine .cons (trimmed_self ?_ ?_) (.cons (trimmed_self ?_ ?_) (.cons (trimmed_self ?_ ?_)
        (.cons (trimmed_self ?_ ?_) .nil))) <;>
        (intro c hc; cases hc; try exact sp _ (by decide))
  refine ⟨⟨[0x63], [0x63], some none, 8⟩, _, _, _, hE, ?_, ?_, by decide, by decide, by decide,
    by decide, by decide, by decide⟩
  · obtain ⟨-, c, z, h1, -, h2⟩ := C94_status_partial badLib false [⟨[0x63], [0x63], some none, 8⟩] 0
      (by decide) hE
    refine ⟨z, ?_⟩
    rw [h1, show c = 0 from ?_]
    refine h2.mpr ⟨rfl, ?_, ?_⟩
    · intro row hr f hf
      rw [List.mem_singleton] at hr
      subst hr
      exact .inr rfl
    · intro x hx h1 h2 h3
      simp only [List.mem_cons, Option.some.injEq, List.not_mem_nil, or_false] at hx
      rcases hx with rfl | rfl
      · revert h2; decide
      · revert h3; decide
  · intro h
    exact absurd (show badLib [0x63] 8 = .ok [0x63] from h) (by decide)

end Idn2.TestLookup
