import Verif.Spec.CExpr

/-
Lemmas on expressions.
-/

namespace Idn2
open Spec.CExpr

/-! ### Appending tokens -/

/-- Append to the last part. -/
def appLast : List (List Tok) → List Tok → List (List Tok)
  | [], g => [g]
  | [x], g => [x ++ g]
  | x :: y :: xs, g => x :: appLast (y :: xs) g

theorem consHead_ne (t : Tok) (xs : List (List Tok)) : consHead t xs ≠ [] := by
  cases xs <;> simp [consHead]

theorem splitTop_ne (sep : Tok) (d : Nat) (f : List Tok) : splitTop sep d f ≠ [] := by
  cases f with
  | nil => simp [splitTop]
  | cons t r =>
    rw [splitTop]
    split
    · simp
    · exact consHead_ne _ _

theorem appLast_consHead (t : Tok) {xs : List (List Tok)} (h : xs ≠ []) (g : List Tok) :
    appLast (consHead t xs) g = consHead t (appLast xs g) := by
  cases xs with
  | nil => exact absurd rfl h
  | cons x xs => cases xs <;> rfl

theorem appLast_cons (x : List Tok) {xs : List (List Tok)} (h : xs ≠ []) (g : List Tok) :
    appLast (x :: xs) g = x :: appLast xs g := by
  cases xs with
  | nil => exact absurd rfl h
  | cons y xs => rfl

theorem appLast_append (xs : List (List Tok)) (y g : List Tok) :
    appLast (xs ++ [y]) g = xs ++ [y ++ g] := by
  induction xs with
  | nil => rfl
  | cons x xs ih =>
    rw [List.cons_append, appLast_cons x (by simp), ih, List.cons_append]

theorem splitTop_self {sep : Tok} {g : List Tok} (h : sep ∉ g) (d : Nat) :
    splitTop sep d g = [g] := by
  induction g generalizing d with
  | nil => rfl
  | cons t r ih =>
    rw [splitTop, if_neg (by rintro ⟨_, rfl⟩; exact h (by simp)),
      ih (fun h' => h (List.mem_cons_of_mem _ h'))]
    rfl

theorem splitTop_app {sep : Tok} {g : List Tok} (h : sep ∉ g) (d : Nat) (f : List Tok) :
    splitTop sep d (f ++ g) = appLast (splitTop sep d f) g := by
  induction f generalizing d with
  | nil => rw [List.nil_append, splitTop_self h]; rfl
  | cons t r ih =>
    rw [List.cons_append, splitTop, splitTop]
    split
    · rw [ih, appLast_cons _ (splitTop_ne _ _ _)]
    · rw [ih, appLast_consHead _ (splitTop_ne _ _ _)]

theorem splitTop_sep {sep : Tok} (hn : nest 0 sep = 0) (d : Nat) (f g : List Tok)
    (h : depth d f = 0) :
    splitTop sep d (f ++ sep :: g) = splitTop sep d f ++ splitTop sep 0 g := by
  induction f generalizing d with
  | nil =>
    have h : d = 0 := h
    subst h
    simp [splitTop]
  | cons t r ih =>
    rw [List.cons_append, splitTop, splitTop]
    split
    · next hs =>
      obtain ⟨rfl, rfl⟩ := hs
      have h : depth (nest 0 t) r = 0 := h
      rw [hn] at h
      rw [ih _ h, List.cons_append]
    · rw [ih _ h]
      cases hx : splitTop sep (nest d t) r with
      | nil => exact absurd hx (splitTop_ne _ _ _)
      | cons x xs => rfl

/-- The last part ends at the depth of the whole. -/
theorem splitTop_last {sep : Tok} (hn : nest 0 sep = 0) (d : Nat) (f : List Tok) : ∃ xs y,
    splitTop sep d f = xs ++ [y] ∧ (xs = [] → y = f) ∧ (xs ≠ [] → depth 0 y = depth d f) := by
  induction f generalizing d with
  | nil => exact ⟨[], [], rfl, fun _ => rfl, fun h => absurd rfl h⟩
  | cons t r ih =>
    rw [splitTop]
    split
    · next hs =>
      obtain ⟨rfl, rfl⟩ := hs
      obtain ⟨xs, y, h1, h2, h3⟩ := ih 0
      refine ⟨[] :: xs, y, by rw [h1, List.cons_append], by simp, fun _ => ?_⟩
      have : depth 0 (t :: r) = depth 0 r := by show depth (nest 0 t) r = _; rw [hn]
      rw [this]
      by_cases hx : xs = []
      · rw [h2 hx]
      · exact h3 hx
    · obtain ⟨xs, y, h1, h2, h3⟩ := ih (nest d t)
      cases xs with
      | nil => exact ⟨[], t :: y, by rw [h1]; rfl, fun _ => by rw [h2 rfl], fun h => absurd rfl h⟩
      | cons x xs =>
        exact ⟨(t :: x) :: xs, y, by rw [h1]; rfl, by simp, fun _ => h3 (by simp)⟩

theorem splitTop_last0 {sep : Tok} (hn : nest 0 sep = 0) {f : List Tok} (h : depth 0 f = 0) :
    ∃ xs y, splitTop sep 0 f = xs ++ [y] ∧ depth 0 y = 0 := by
  obtain ⟨xs, y, h1, h2, h3⟩ := splitTop_last hn 0 f
  refine ⟨xs, y, h1, ?_⟩
  by_cases hx : xs = []
  · rw [h2 hx, h]
  · rw [h3 hx, h]

theorem splitQuest_app {g : List Tok} (h : .quest ∉ g) (d : Nat) (f : List Tok) :
    splitQuest d (f ++ g) = (splitQuest d f).map fun p => (p.1, p.2 ++ g) := by
  induction f generalizing d with
  | nil =>
    rw [List.nil_append]
    show splitQuest d g = none
    induction g generalizing d with
    | nil => rfl
    | cons t r ih =>
      rw [splitQuest, if_neg (by rintro ⟨_, rfl⟩; exact h (by simp)),
        ih (fun h' => h (List.mem_cons_of_mem _ h'))]
      rfl
  | cons t r ih =>
    rw [List.cons_append, splitQuest, splitQuest]
    split
    · rfl
    · rw [ih]
      cases splitQuest (nest d t) r <;> rfl

theorem splitColon_app {d q : Nat} {f a b : List Tok} (h : splitColon d q f = some (a, b))
    (g : List Tok) : splitColon d q (f ++ g) = some (a, b ++ g) := by
  induction f generalizing d q a with
  | nil => cases h
  | cons t r ih =>
    rw [List.cons_append]
    rw [splitColon] at h ⊢
    split at h
    · next hs => rw [if_pos hs]; cases h; rfl
    · next hs =>
      rw [if_neg hs]
      simp only [Option.map_eq_some_iff] at h ⊢
      obtain ⟨⟨x, y⟩, h1, h2⟩ := h
      cases h2
      exact ⟨_, ih h1, rfl⟩

theorem splitQuest_depth {d : Nat} {f c r : List Tok} (h : splitQuest d f = some (c, r)) :
    depth 0 r = depth d f := by
  induction f generalizing d c with
  | nil => cases h
  | cons t s ih =>
    rw [splitQuest] at h
    split at h
    · next hs => obtain ⟨rfl, rfl⟩ := hs; cases h; rfl
    · simp only [Option.map_eq_some_iff] at h
      obtain ⟨⟨x, y⟩, h1, h2⟩ := h
      cases h2
      exact ih h1

theorem splitColon_depth {d q : Nat} {f a b : List Tok} (h : splitColon d q f = some (a, b)) :
    depth 0 b = depth d f := by
  induction f generalizing d q a with
  | nil => cases h
  | cons t s ih =>
    rw [splitColon] at h
    split at h
    · next hs => obtain ⟨rfl, rfl, rfl⟩ := hs; cases h; rfl
    · simp only [Option.map_eq_some_iff] at h
      obtain ⟨⟨x, y⟩, h1, h2⟩ := h
      cases h2
      exact ih h1

/-! ### Levels of operators -/

theorem level_def {sep : Tok} {op : Nat → Nat → Nat} {sub : List Tok → Option Nat} {f : List Tok}
    {v : Nat} : level sep op sub f = some v ↔
      ∃ x xs, (splitTop sep 0 f).mapM sub = some (x :: xs) ∧ v = xs.foldl op x := by
  unfold level
  cases h : (splitTop sep 0 f).mapM sub with
  | none => simp
  | some l =>
    cases l with
    | nil => simp [fold1]
    | cons x xs =>
      simp only [Option.bind_some, fold1, Option.some.injEq, List.cons.injEq]
      constructor
      · intro h; exact ⟨x, xs, ⟨rfl, rfl⟩, h.symm⟩
      · rintro ⟨_, _, ⟨rfl, rfl⟩, h⟩; exact h.symm

theorem mapM_append_some {sub : List Tok → Option Nat} {xs ys : List (List Tok)} {l : List Nat} :
    (xs ++ ys).mapM sub = some l ↔
      ∃ a b, xs.mapM sub = some a ∧ ys.mapM sub = some b ∧ l = a ++ b := by
  rw [List.mapM_append]
  cases xs.mapM sub with
  | none => simp
  | some a =>
    cases ys.mapM sub with
    | none => simp
    | some b => simp [eq_comm]

theorem mapM_single {sub : List Tok → Option Nat} {y : List Tok} {b : List Nat} :
    [y].mapM sub = some b ↔ ∃ v, sub y = some v ∧ b = [v] := by
  cases h : sub y with
  | none => simp [h]
  | some v => simp [h, eq_comm]

theorem foldl_bool {op : Nat → Nat → Nat} (hop : ∀ a b, op a b ≤ 1) (x : Nat) (xs : List Nat)
    (y : Nat) : (xs ++ [y]).foldl op x ≤ 1 := by
  rw [List.foldl_append]
  exact hop _ _

theorem or_nine {v : Nat} (h : v ≤ 1) : v ||| 9 = 9 := by
  rcases (by omega : v = 0 ∨ v = 1) with rfl | rfl <;> decide

/-- Operators that give 0 or 1 hide what is appended behind, unless there is no operator. -/
theorem level_app {sep : Tok} {op : Nat → Nat → Nat} {sub : List Tok → Option Nat}
    {f g : List Tok} {v : Nat} (hn : nest 0 sep = 0) (hg : sep ∉ g) (hop : ∀ a b, op a b ≤ 1)
    (hd : depth 0 f = 0) (h : level sep op sub f = some v)
    (hsub : ∀ y v, depth 0 y = 0 → sub y = some v → ∃ w, sub (y ++ g) = some w ∧ w ||| 9 = v ||| 9) :
    ∃ w, level sep op sub (f ++ g) = some w ∧ w ||| 9 = v ||| 9 := by
  obtain ⟨xs, y, h1, h2⟩ := splitTop_last0 hn hd
  obtain ⟨x, vs, h3, h4⟩ := level_def.mp h
  rw [h1] at h3
  obtain ⟨a, b, h5, h6, h7⟩ := mapM_append_some.mp h3
  obtain ⟨u, h8, rfl⟩ := mapM_single.mp h6
  obtain ⟨w, h9, h10⟩ := hsub y u h2 h8
  have h11 : (splitTop sep 0 (f ++ g)).mapM sub = some (a ++ [w]) := by
    rw [splitTop_app hg, h1, appLast_append]
    exact mapM_append_some.mpr ⟨a, [w], h5, mapM_single.mpr ⟨w, h9, rfl⟩, rfl⟩
  cases a with
  | nil =>
    refine ⟨w, level_def.mpr ⟨w, [], h11, rfl⟩, ?_⟩
    cases h7
    rw [h4]
    exact h10
  | cons z a =>
    refine ⟨_, level_def.mpr ⟨z, a ++ [w], h11, rfl⟩, ?_⟩
    obtain ⟨rfl, rfl⟩ : x = z ∧ vs = a ++ [u] := by simpa using h7
    rw [h4, or_nine (foldl_bool hop _ _ _), or_nine (foldl_bool hop _ _ _)]

/-- The tokens that the macros append. -/
def orNine : List Tok := [.bar, .num 1, .bar, .num 8]

theorem bitOr_app {ev : List Tok → Option Nat} {f : List Tok} {v : Nat} (hd : depth 0 f = 0)
    (h : bitOr ev f = some v) : bitOr ev (f ++ orNine) = some (v ||| 9) := by
  unfold bitOr at h ⊢
  obtain ⟨x, xs, h1, h2⟩ := level_def.mp h
  have h3 := splitTop_sep (sep := .bar) rfl 0 f [.num 1, .bar, .num 8] hd
  refine level_def.mpr ⟨x, xs ++ [1, 8], ?_, ?_⟩
  · show (splitTop .bar 0 (f ++ .bar :: [.num 1, .bar, .num 8])).mapM _ = _
    rw [h3]
    exact mapM_append_some.mpr ⟨_, [1, 8], h1, rfl, rfl⟩
  · rw [List.foldl_append, h2]
    simp only [List.foldl_cons, List.foldl_nil]
    rw [Nat.or_assoc]
    rfl

theorem logOr_app {ev : List Tok → Option Nat} {f : List Tok} {v : Nat} (hd : depth 0 f = 0)
    (h : logOr ev f = some v) : ∃ w, logOr ev (f ++ orNine) = some w ∧ w ||| 9 = v ||| 9 := by
  refine level_app rfl (by decide) (fun a b => by split <;> omega) hd h
    fun y v hd h => ?_
  refine level_app rfl (by decide) (fun a b => by split <;> omega) hd h
    fun y v hd h => ?_
  exact ⟨_, bitOr_app hd h, by rw [Nat.or_assoc]; rfl⟩

theorem eval_app {k : Nat} {f : List Tok} {v : Nat} (hd : depth 0 f = 0) (h : eval k f = some v) :
    ∃ w, eval k (f ++ orNine) = some w ∧ w ||| 9 = v ||| 9 := by
  induction k generalizing f v with
  | zero => cases h
  | succ k ih =>
    rw [eval] at h ⊢
    rw [splitQuest_app (by decide)]
    cases hq : splitQuest 0 f with
    | none =>
      rw [hq] at h
      exact logOr_app hd h
    | some p =>
      obtain ⟨c, r⟩ := p
      rw [hq] at h
      simp only [Option.map_some] at h ⊢
      cases hc : splitColon 0 0 r with
      | none => rw [hc] at h; cases h
      | some p =>
        obtain ⟨a, b⟩ := p
        rw [hc] at h
        rw [splitColon_app hc]
        have hb : depth 0 b = 0 := by rw [splitColon_depth hc, splitQuest_depth hq, hd]
        simp only [Option.bind_eq_some_iff, Option.map_eq_some_iff] at h ⊢
        obtain ⟨vc, h1, va, h2, vb, h3, h4⟩ := h
        obtain ⟨w, h5, h6⟩ := ih hb h3
        refine ⟨if vc ≠ 0 then va else w, ⟨vc, h1, va, h2, w, h5, rfl⟩, ?_⟩
        rw [← h4]
        split
        · rfl
        · exact h6

/-- An expression without `?:`, `&&` and `||` outside parentheses. -/
theorem eval_tight {k : Nat} {f : List Tok} {v : Nat} (hd : depth 0 f = 0) (ht : Tight f)
    (h : eval k f = some v) : eval k (f ++ orNine) = some (v ||| 9) := by
  obtain ⟨h1, h2, h3⟩ := ht
  cases k with
  | zero => cases h
  | succ k =>
    rw [eval] at h ⊢
    rw [splitQuest_app (by decide), h1]
    rw [h1] at h
    have h' : logOr (eval k) f = some v := h
    show logOr (eval k) (f ++ orNine) = _
    obtain ⟨x, xs, h4, h5⟩ := level_def.mp h'
    rw [h2] at h4
    obtain ⟨u, h6, h7⟩ := mapM_single.mp h4
    cases h7
    obtain ⟨x, xs, h4, h7⟩ := level_def.mp h6
    rw [h3] at h4
    obtain ⟨u', h8, h9⟩ := mapM_single.mp h4
    cases h9
    have h10 := bitOr_app hd h8
    subst h5 h7
    refine level_def.mpr ⟨_, [], ?_, rfl⟩
    rw [splitTop_app (by decide), h2]
    refine mapM_single.mpr ⟨_, ?_, rfl⟩
    refine level_def.mpr ⟨_, [], ?_, rfl⟩
    rw [splitTop_app (by decide), h3]
    exact mapM_single.mpr ⟨_, h10, rfl⟩

/-! ### An expression has one value -/

theorem mapM_mono {sub sub' : List Tok → Option Nat} (h : ∀ f v, sub f = some v → sub' f = some v)
    {xs : List (List Tok)} {l : List Nat} (hl : xs.mapM sub = some l) : xs.mapM sub' = some l := by
  induction xs generalizing l with
  | nil => exact hl
  | cons x xs ih =>
    rw [← List.singleton_append] at hl ⊢
    obtain ⟨a, b, h1, h2, h3⟩ := mapM_append_some.mp hl
    obtain ⟨v, h4, h5⟩ := mapM_single.mp h1
    exact mapM_append_some.mpr ⟨a, b, mapM_single.mpr ⟨v, h _ _ h4, h5⟩, ih h2, h3⟩

theorem level_mono {sep : Tok} {op : Nat → Nat → Nat} {sub sub' : List Tok → Option Nat}
    (h : ∀ f v, sub f = some v → sub' f = some v) (f : List Tok) (v : Nat)
    (hv : level sep op sub f = some v) : level sep op sub' f = some v := by
  obtain ⟨x, xs, h1, h2⟩ := level_def.mp hv
  exact level_def.mpr ⟨x, xs, mapM_mono h h1, h2⟩

theorem prim_mono {ev ev' : List Tok → Option Nat} (h : ∀ f v, ev f = some v → ev' f = some v)
    (f : List Tok) (v : Nat) (hv : prim ev f = some v) : prim ev' f = some v := by
  unfold prim at hv ⊢
  split at hv
  · exact hv
  · split at hv
    · next hr => simp only [if_pos hr]; exact h _ _ hv
    · cases hv
  · cases hv

theorem logOr_mono {ev ev' : List Tok → Option Nat} (h : ∀ f v, ev f = some v → ev' f = some v)
    (f : List Tok) (v : Nat) (hv : logOr ev f = some v) : logOr ev' f = some v :=
  level_mono (level_mono (level_mono (level_mono (level_mono (prim_mono h))))) f v hv

theorem eval_succ {k : Nat} (f : List Tok) (v : Nat) (h : eval k f = some v) :
    eval (k + 1) f = some v := by
  induction k generalizing f v with
  | zero => cases h
  | succ k ih =>
    rw [eval] at h ⊢
    split at h
    · next hq => exact logOr_mono ih f v h
    · next c r hq =>
      split at h
      · cases h
      · next a b hc =>
        simp only [Option.bind_eq_some_iff, Option.map_eq_some_iff] at h ⊢
        obtain ⟨vc, h1, va, h2, vb, h3, h4⟩ := h
        exact ⟨vc, logOr_mono ih _ _ h1, va, ih _ _ h2, vb, ih _ _ h3, h4⟩

theorem eval_le {k k' : Nat} (hk : k ≤ k') {f : List Tok} {v : Nat} (h : eval k f = some v) :
    eval k' f = some v := by
  induction hk with
  | refl => exact h
  | step _ ih => exact eval_succ _ _ ih

theorem val_unique {f : List Tok} {v w : Nat} (h : Val f v) (h' : Val f w) : v = w := by
  obtain ⟨k, h⟩ := h
  obtain ⟨k', h'⟩ := h'
  have h1 := eval_le (Nat.le_max_left k k') h
  have h2 := eval_le (Nat.le_max_right k k') h'
  rw [h1] at h2
  exact Option.some.inj h2

/-! ### Parentheses match in an expression -/

/-- The tokens leave the depth as it is. -/
def Bal (f : List Tok) : Prop := ∀ d, depth d f = d

theorem bal_append {f g : List Tok} (hf : Bal f) (hg : Bal g) : Bal (f ++ g) := by
  intro d
  have : depth d (f ++ g) = depth (depth d f) g := by simp [depth]
  rw [this, hf, hg]

theorem bal_single {t : Tok} (h : ∀ d, nest d t = d) : Bal [t] := h

theorem splitTop_bal {sep : Tok} (hn : ∀ d, nest d sep = d) {d : Nat} {f y : List Tok}
    {ys : List (List Tok)} (h : splitTop sep d f = y :: ys) (hy : ∀ e, depth (d + e) y = e)
    (hys : ∀ z ∈ ys, Bal z) (e : Nat) : depth (d + e) f = e := by
  induction f generalizing d y ys e with
  | nil => cases h; exact hy e
  | cons t r ih =>
    rw [splitTop] at h
    split at h
    · next hs =>
      obtain ⟨rfl, rfl⟩ := hs
      cases h
      have : depth (0 + e) (t :: r) = depth (nest (0 + e) t) r := rfl
      rw [this, hn]
      cases hx : splitTop t 0 r with
      | nil => exact absurd hx (splitTop_ne _ _ _)
      | cons x xs =>
        rw [hx] at hys
        refine ih hx (fun e => ?_) (fun z hz => hys z (by simp [hz])) e
        rw [Nat.zero_add]; exact hys x (by simp) e
    · cases hx : splitTop sep (nest d t) r with
      | nil => exact absurd hx (splitTop_ne _ _ _)
      | cons x xs =>
        rw [hx] at h
        cases h
        have e1 : ∀ e, nest (d + e) t = nest d t + e ∨ (t = .rp ∧ d = 0) := by
          intro e
          cases t <;> simp [nest] <;> omega
        have key : ∀ e, depth (nest (d + e) t) x = e := hy
        have e2 : ¬ (t = .rp ∧ d = 0) := by
          rintro ⟨rfl, rfl⟩
          have k0 := key 0
          have k1 := key 1
          simp [nest] at k0 k1
          omega
        have e3 : ∀ e, nest (d + e) t = nest d t + e := fun e => (e1 e).resolve_right e2
        have : depth (d + e) (t :: r) = depth (nest (d + e) t) r := rfl
        rw [this, e3]
        exact ih hx (fun e => by rw [← e3]; exact key e) hys e

theorem mapM_mem {sub : List Tok → Option Nat} {xs : List (List Tok)} {l : List Nat}
    (h : xs.mapM sub = some l) : ∀ x ∈ xs, ∃ v, sub x = some v := by
  induction xs generalizing l with
  | nil => simp
  | cons x xs ih =>
    rw [← List.singleton_append] at h
    obtain ⟨a, b, h1, h2, h3⟩ := mapM_append_some.mp h
    obtain ⟨v, h4, h5⟩ := mapM_single.mp h1
    intro y hy
    rcases List.mem_cons.mp hy with rfl | hy
    · exact ⟨v, h4⟩
    · exact ih h2 y hy

theorem level_bal {sep : Tok} (hn : ∀ d, nest d sep = d) {op : Nat → Nat → Nat}
    {sub : List Tok → Option Nat} (hs : ∀ f v, sub f = some v → Bal f) (f : List Tok) (v : Nat)
    (h : level sep op sub f = some v) : Bal f := by
  obtain ⟨x, xs, h1, h2⟩ := level_def.mp h
  have hm := mapM_mem h1
  cases hy : splitTop sep 0 f with
  | nil => exact absurd hy (splitTop_ne _ _ _)
  | cons y ys =>
    rw [hy] at hm
    have hb : ∀ z ∈ y :: ys, Bal z := fun z hz => by
      obtain ⟨v, hv⟩ := hm z hz
      exact hs z v hv
    intro d
    have := splitTop_bal hn hy (fun e => by rw [Nat.zero_add]; exact hb y (by simp) e)
      (fun z hz => hb z (by simp [hz])) d
    rw [Nat.zero_add] at this
    exact this

theorem prim_bal {ev : List Tok → Option Nat} (h : ∀ f v, ev f = some v → Bal f) (f : List Tok)
    (v : Nat) (hv : prim ev f = some v) : Bal f := by
  unfold prim at hv
  split at hv
  · exact fun d => rfl
  · next r =>
    split at hv
    · next hr =>
      have hb := h _ _ hv
      obtain ⟨s, rfl⟩ : ∃ s, r = s ++ [.rp] := by
        rw [List.getLast?_eq_some_iff] at hr; exact hr
      rw [List.dropLast_concat] at hb
      intro d
      have : depth d (.lp :: (s ++ [.rp])) = depth (d + 1) s - 1 := by
        simp [depth, nest]
      rw [this, hb]
      omega
    · cases hv
  · cases hv

theorem splitQuest_eq {d : Nat} {f c r : List Tok} (h : splitQuest d f = some (c, r)) :
    f = c ++ .quest :: r := by
  induction f generalizing d c with
  | nil => cases h
  | cons t s ih =>
    rw [splitQuest] at h
    split at h
    · next hs => obtain ⟨rfl, rfl⟩ := hs; cases h; rfl
    · simp only [Option.map_eq_some_iff] at h
      obtain ⟨⟨x, y⟩, h1, h2⟩ := h
      cases h2
      rw [ih h1]; rfl

theorem splitColon_eq {d q : Nat} {f a b : List Tok} (h : splitColon d q f = some (a, b)) :
    f = a ++ .colon :: b := by
  induction f generalizing d q a with
  | nil => cases h
  | cons t s ih =>
    rw [splitColon] at h
    split at h
    · next hs => obtain ⟨rfl, rfl, rfl⟩ := hs; cases h; rfl
    · simp only [Option.map_eq_some_iff] at h
      obtain ⟨⟨x, y⟩, h1, h2⟩ := h
      cases h2
      rw [ih h1]; rfl

theorem eval_bal {k : Nat} (f : List Tok) (v : Nat) (h : eval k f = some v) : Bal f := by
  induction k generalizing f v with
  | zero => cases h
  | succ k ih =>
    have hlog : ∀ f v, logOr (eval k) f = some v → Bal f :=
      level_bal (fun _ => rfl) (level_bal (fun _ => rfl) (level_bal (fun _ => rfl)
        (level_bal (fun _ => rfl) (level_bal (fun _ => rfl) (prim_bal ih)))))
    rw [eval] at h
    split at h
    · exact hlog f v h
    · next c r hq =>
      split at h
      · cases h
      · next a b hc =>
        simp only [Option.bind_eq_some_iff, Option.map_eq_some_iff] at h
        obtain ⟨vc, h1, va, h2, vb, h3, h4⟩ := h
        rw [splitQuest_eq hq, splitColon_eq hc]
        exact bal_append (hlog _ _ h1) (bal_append (f := [.quest]) (fun _ => rfl)
          (bal_append (ih _ _ h2) (bal_append (f := [.colon]) (fun _ => rfl) (ih _ _ h3))))

end Idn2
