import Verif.Model.Version
import Verif.Spec.Version

/-
`strverscmp` orders version numbers by their components.
-/

namespace Idn2
open Spec

/-- Value of a list of digits. -/
def verVal : List Nat → Nat → Nat
  | [], v => v
  | d :: ds, v => verVal ds (10 * v + d)

theorem verVal_add (ds : List Nat) (v : Nat) : verVal ds v = v * 10 ^ ds.length + verVal ds 0 := by
  induction ds generalizing v with
  | nil => simp [verVal]
  | cons d ds ih =>
    unfold verVal
    rw [ih, ih (10 * 0 + d), List.length_cons, Nat.pow_succ]
    have : (10 * v + d) * 10 ^ ds.length = v * (10 ^ ds.length * 10) + d * 10 ^ ds.length := by
      rw [Nat.add_mul, Nat.mul_comm 10 v, Nat.mul_assoc, Nat.mul_comm 10]
    rw [this]
    simp only [Nat.mul_zero, Nat.zero_add]
    omega

theorem verVal_cons (d : Nat) (ds : List Nat) :
    verVal (d :: ds) 0 = d * 10 ^ ds.length + verVal ds 0 := by
  have : verVal (d :: ds) 0 = verVal ds (10 * 0 + d) := rfl
  rw [this, verVal_add]
  simp

theorem verVal_snoc (ds : List Nat) (d v : Nat) : verVal (ds ++ [d]) v = 10 * verVal ds v + d := by
  induction ds generalizing v with
  | nil => rfl
  | cons c ds ih => exact ih _

theorem verVal_lt {ds : List Nat} (h : ∀ d ∈ ds, d < 10) : verVal ds 0 < 10 ^ ds.length := by
  induction ds with
  | nil => simp [verVal]
  | cons d ds ih =>
    rw [verVal_cons, List.length_cons, Nat.pow_succ]
    have h1 := ih fun x hx => h x (by simp [hx])
    have h2 := h d (by simp)
    have : d * 10 ^ ds.length ≤ 9 * 10 ^ ds.length := Nat.mul_le_mul_right _ (by omega)
    omega

/-- The digits as characters. -/
def verText (ds : List Nat) : List Nat := ds.map (48 + ·)

theorem verClass_digit {d : Nat} (h : d < 10) : verClass (48 + d) = if d = 0 then 2 else 1 := by
  unfold verClass
  (repeat' split) <;> omega

theorem numeral_digits {t : List Nat} {n : Nat} (h : Numeral t n) :
    ∃ ds, t = verText ds ∧ (∀ d ∈ ds, d < 10) ∧ verVal ds 0 = n ∧
      (ds = [0] ∨ ∃ d ds', ds = d :: ds' ∧ 0 < d) := by
  induction h with
  | @digit d h =>
    refine ⟨[d], rfl, by simpa using h, by simp [verVal], ?_⟩
    rcases Nat.eq_zero_or_pos d with rfl | hd
    · exact Or.inl rfl
    · exact Or.inr ⟨d, [], rfl, hd⟩
  | @snoc t n d _ hn hd ih =>
    obtain ⟨ds, h1, h2, h3, h4⟩ := ih
    refine ⟨ds ++ [d], by simp [verText, h1], ?_, by rw [verVal_snoc, h3], Or.inr ?_⟩
    · intro x hx
      rcases List.mem_append.mp hx with hx | hx
      · exact h2 x hx
      · rw [List.mem_singleton.mp hx]; exact hd
    · rcases h4 with rfl | ⟨c, ds', rfl, hc⟩
      · simp [verVal] at h3; omega
      · exact ⟨c, ds' ++ [d], rfl, hc⟩

/-- The result at the first difference. -/
def verDiffer (st : VerState) (p q : List Nat) : Int :=
  match verResult st (verClass (verHead p)) (verClass (verHead q)) with
  | .cmp => (verHead p : Int) - verHead q
  | .len => verLen ((verHead p : Int) - verHead q) p.tail q.tail
  | .less => -1
  | .greater => 1

theorem verLoop_differ {st : VerState} {p q : List Nat} (h : verHead p ≠ verHead q) :
    verLoop st p q = verDiffer st p q := by
  rw [verLoop.eq_def]
  simp only
  rw [if_neg h]
  rfl

theorem verLoop_step (st : VerState) (c : Nat) (p q : List Nat) :
    verLoop st (c :: p) (c :: q) = verLoop (verNext st (verClass c)) p q := by
  rw [verLoop.eq_def]
  simp [verHead]

/-- The loop of the case LEN compares the lengths of two numbers. -/
theorem verLen_eq {x y : List Nat} (hx : verClass (verHead x) = 0) (hy : verClass (verHead y) = 0)
    (diff : Int) : ∀ (ps qs : List Nat), (∀ d ∈ ps, d < 10) → (∀ d ∈ qs, d < 10) →
    verLen diff (verText ps ++ x) (verText qs ++ y) =
      if ps.length < qs.length then -1 else if qs.length < ps.length then 1 else diff := by
  have hdig : ∀ {d}, d < 10 → verClass (48 + d) ≠ 0 := by
    intro d hd; rw [verClass_digit hd]; split <;> simp
  have hend : ∀ q, verLen diff x q = if verClass (verHead q) ≠ 0 then -1 else diff := by
    intro q
    cases x with
    | nil => rfl
    | cons c x =>
      have hx' : verClass c = 0 := hx
      simp [verLen, hx']
  intro ps
  induction ps with
  | nil =>
    intro qs _ hq
    show verLen diff x (verText qs ++ y) = _
    rw [hend]
    cases qs with
    | nil => simp [verText, hy]
    | cons q qs =>
      have := hdig (hq q (by simp))
      simp [verText, verHead, this]
  | cons p ps ih =>
    intro qs hp hq
    have h1 := hdig (hp p (by simp))
    have e : verText (p :: ps) ++ x = (48 + p) :: (verText ps ++ x) := rfl
    rw [e, verLen, if_pos h1]
    cases qs with
    | nil =>
      have : verClass (verHead (verText [] ++ y)) = 0 := hy
      rw [if_pos this]
      simp
    | cons q qs =>
      have e : verText (q :: qs) ++ y = (48 + q) :: (verText qs ++ y) := rfl
      have h2 := hdig (hq q (by simp))
      rw [e]
      rw [if_neg (by exact h2), List.tail_cons, ih qs (fun d hd => hp d (by simp [hd])) (fun d hd => hq d (by simp [hd]))]
      simp only [List.length_cons, Nat.add_lt_add_iff_right]

/-- Outcome of a comparison in terms of an order. -/
structure VerSign (lt gt : Prop) (r e : Int) : Prop where
  neg : lt → r < 0
  pos : gt → 0 < r
  eq : ¬ lt → ¬ gt → r = e

/-- Shorter, or of the same length and smaller. -/
def verLess (ps qs : List Nat) : Prop :=
  ps.length < qs.length ∨ (ps.length = qs.length ∧ verVal ps 0 < verVal qs 0)

theorem verLess_cons {p q : Nat} {ps qs : List Nat} (hp : ∀ d ∈ ps, d < 10) (hpq : p < q) :
    ps.length = qs.length → verVal (p :: ps) 0 < verVal (q :: qs) 0 := by
  intro h
  rw [verVal_cons, verVal_cons, ← h]
  have h1 := verVal_lt hp
  have : (p + 1) * 10 ^ ps.length ≤ q * 10 ^ ps.length := Nat.mul_le_mul_right _ hpq
  rw [Nat.add_mul] at this
  omega

/-- Comparison at the first differing digit of two numbers whose remaining digits are `ps` and
`qs`. -/
theorem verLen_sign {x y : List Nat} (hx : verClass (verHead x) = 0)
    (hy : verClass (verHead y) = 0) {p q : Nat} {ps qs : List Nat} (hpq : p ≠ q)
    (hp : ∀ d ∈ ps, d < 10) (hq : ∀ d ∈ qs, d < 10) (e : Int) :
    VerSign (verLess (p :: ps) (q :: qs)) (verLess (q :: qs) (p :: ps))
      (verLen (((48 + p : Nat) : Int) - ((48 + q : Nat) : Int)) (verText ps ++ x) (verText qs ++ y))
      e := by
  rw [verLen_eq hx hy _ ps qs hp hq]
  unfold verLess
  simp only [List.length_cons, Nat.add_lt_add_iff_right, Nat.add_right_cancel_iff]
  rcases Nat.lt_trichotomy ps.length qs.length with h | h | h
  · rw [if_pos h]
    refine ⟨fun _ => by omega, fun h' => ?_, fun h' _ => absurd (Or.inl h) h'⟩
    rcases h' with h' | ⟨h', _⟩ <;> omega
  · rw [if_neg (by omega), if_neg (by omega)]
    rcases Nat.lt_or_gt_of_ne hpq with h2 | h2
    · have := verLess_cons hp h2 h
      refine ⟨fun _ => by omega, fun h' => ?_, fun h' _ => absurd (Or.inr ⟨h, this⟩) h'⟩
      rcases h' with h' | ⟨_, h'⟩ <;> omega
    · have := verLess_cons hq h2 h.symm
      refine ⟨fun h' => ?_, fun _ => by omega, fun _ h' => absurd (Or.inr ⟨h.symm, this⟩) h'⟩
      rcases h' with h' | ⟨_, h'⟩ <;> omega
  · rw [if_neg (by omega), if_pos h]
    refine ⟨fun h' => ?_, fun _ => by omega, fun _ h' => absurd (Or.inl h) h'⟩
    rcases h' with h' | ⟨h', _⟩ <;> omega

theorem verLess_same {p : Nat} {ps qs : List Nat} :
    verLess (p :: ps) (p :: qs) ↔ verLess ps qs := by
  unfold verLess
  simp only [List.length_cons, Nat.add_lt_add_iff_right, Nat.add_right_cancel_iff]
  constructor
  · rintro (h | ⟨h, h'⟩)
    · exact Or.inl h
    · rw [verVal_cons, verVal_cons, h] at h'
      exact Or.inr ⟨h, by omega⟩
  · rintro (h | ⟨h, h'⟩)
    · exact Or.inl h
    · exact Or.inr ⟨h, by rw [verVal_cons, verVal_cons, h]; omega⟩

/-- Within two numbers, of which the same digits have been read. -/
theorem verLoop_integral {x y : List Nat} (hx : verClass (verHead x) = 0)
    (hy : verClass (verHead y) = 0) : ∀ (ps qs : List Nat), (∀ d ∈ ps, d < 10) →
    (∀ d ∈ qs, d < 10) →
    VerSign (verLess ps qs) (verLess qs ps)
      (verLoop .integral (verText ps ++ x) (verText qs ++ y)) (verLoop .integral x y) := by
  have hdig : ∀ {d}, d < 10 → verClass (48 + d) ≠ 0 := by
    intro d hd; rw [verClass_digit hd]; split <;> simp
  intro ps
  induction ps with
  | nil =>
    intro qs _ hq
    cases qs with
    | nil =>
      refine ⟨fun h => ?_, fun h => ?_, fun _ _ => rfl⟩
      all_goals rcases h with h | ⟨_, h⟩ <;> simp at h
    | cons q qs =>
      have h1 := hdig (hq q (by simp))
      have e : verText (q :: qs) ++ y = (48 + q) :: (verText qs ++ y) := rfl
      have r : verLoop .integral (verText [] ++ x) (verText (q :: qs) ++ y) = -1 := by
        have e1 : verHead (verText [] ++ x) = verHead x := rfl
        have hne : verHead x ≠ 48 + q := fun h => h1 (h ▸ hx)
        rw [e, verLoop_differ (by exact hne), verDiffer, e1, hx]
        have : verResult .integral 0 (verClass (48 + q)) = .less := by
          rw [verClass_digit (hq q (by simp))]; split <;> rfl
        simp only [verHead, this]
      rw [r]
      refine ⟨fun _ => by omega, fun h => ?_, fun h => absurd (Or.inl (by simp)) h⟩
      rcases h with h | ⟨h, _⟩ <;> simp at h
  | cons p ps ih =>
    intro qs hp hq
    have h1 := hdig (hp p (by simp))
    have e : verText (p :: ps) ++ x = (48 + p) :: (verText ps ++ x) := rfl
    cases qs with
    | nil =>
      have r : verLoop .integral (verText (p :: ps) ++ x) (verText [] ++ y) = 1 := by
        have e1 : verHead (verText [] ++ y) = verHead y := rfl
        have hne : ¬ 48 + p = verHead y := fun h => h1 (h ▸ hy)
        rw [e, verLoop_differ (by exact hne), verDiffer, e1, hy]
        have : verResult .integral (verClass (48 + p)) 0 = .greater := by
          rw [verClass_digit (hp p (by simp))]; split <;> rfl
        simp only [verHead, this]
      rw [r]
      refine ⟨fun h => ?_, fun _ => by omega, fun _ h => absurd (Or.inl (by simp)) h⟩
      rcases h with h | ⟨h, _⟩ <;> simp at h
    | cons q qs =>
      have e' : verText (q :: qs) ++ y = (48 + q) :: (verText qs ++ y) := rfl
      rw [e, e']
      by_cases hpq : p = q
      · subst hpq
        rw [verLoop_step]
        have : verNext .integral (verClass (48 + p)) = .integral := by
          rw [verClass_digit (hp p (by simp))]; split <;> rfl
        rw [this]
        have := ih qs (fun d hd => hp d (by simp [hd])) (fun d hd => hq d (by simp [hd]))
        refine ⟨fun h => this.neg (verLess_same.mp h), fun h => this.pos (verLess_same.mp h),
          fun h h' => this.eq (fun k => h (verLess_same.mpr k)) (fun k => h' (verLess_same.mpr k))⟩
      · rw [verLoop_differ (by simp only [verHead]; omega), verDiffer]
        simp only [verHead, List.tail_cons]
        have : verResult .integral (verClass (48 + p)) (verClass (48 + q)) = .len := by
          rw [verClass_digit (hp p (by simp)), verClass_digit (hq q (by simp))]
          (repeat' split) <;> rfl
        simp only [this]
        exact verLen_sign hx hy hpq (fun d hd => hp d (by simp [hd]))
          (fun d hd => hq d (by simp [hd])) _

/-- States behind a number. -/
def VerEnd (x y : List Nat) (e : Int) : Prop :=
  verLoop .integral x y = e ∧ verLoop .zeros x y = e

/-- Two components are compared as numbers. -/
theorem verLoop_number {x y : List Nat} (hx : verClass (verHead x) = 0)
    (hy : verClass (verHead y) = 0) {s t : List Nat} {m n : Nat} (hs : Numeral s m)
    (ht : Numeral t n) {e : Int} (he : VerEnd x y e) :
    VerSign (m < n) (n < m) (verLoop .normal (s ++ x) (t ++ y)) e := by
  obtain ⟨ps, rfl, p1, rfl, p2⟩ := numeral_digits hs
  obtain ⟨qs, rfl, q1, rfl, q2⟩ := numeral_digits ht
  have pow : ∀ k : Nat, 0 < 10 ^ k := fun k => Nat.pow_pos (by omega)
  have lead : ∀ {d : Nat} {ds : List Nat}, 0 < d → 10 ^ ds.length ≤ verVal (d :: ds) 0 := by
    intro d ds hd
    rw [verVal_cons]
    have : 1 * 10 ^ ds.length ≤ d * 10 ^ ds.length := Nat.mul_le_mul_right _ hd
    omega
  have step : ∀ {p q : Nat} (ps qs : List Nat), verText (p :: ps) ++ x = (48 + p) :: (verText ps ++ x) ∧
      verText (q :: qs) ++ y = (48 + q) :: (verText qs ++ y) := fun _ _ => ⟨rfl, rfl⟩
  rcases p2 with rfl | ⟨p, ps, rfl, hp⟩ <;> rcases q2 with rfl | ⟨q, qs, rfl, hq⟩
  · have r : verLoop .normal (verText [0] ++ x) (verText [0] ++ y) = e := by
      rw [(step (q := 0) [] []).1, (step (p := 0) [] []).2, verLoop_step]
      exact he.2
    rw [r]
    exact ⟨fun h => absurd h (by omega), fun h => absurd h (by omega), fun _ _ => rfl⟩
  · have hq10 := q1 q (by simp)
    have r : verLoop .normal (verText [0] ++ x) (verText (q :: qs) ++ y) = -q := by
      rw [(step (q := 0) [] []).1, (step (p := 0) [] qs).2,
        verLoop_differ (by simp only [verHead]; omega), verDiffer]
      simp only [verHead]
      have : verResult .normal (verClass (48 + 0)) (verClass (48 + q)) = .cmp := by
        rw [verClass_digit hq10, if_neg (by omega)]; rfl
      simp only [this]
      omega
    rw [r]
    have := lead (ds := qs) hq
    have := pow qs.length
    have z : verVal [0] 0 = 0 := rfl
    rw [z]
    exact ⟨fun _ => by omega, fun h => by omega, fun h => by omega⟩
  · have hp10 := p1 p (by simp)
    have r : verLoop .normal (verText (p :: ps) ++ x) (verText [0] ++ y) = p := by
      rw [(step (q := 0) ps []).1, (step (p := 0) [] []).2,
        verLoop_differ (by simp only [verHead]; omega), verDiffer]
      simp only [verHead]
      have : verResult .normal (verClass (48 + p)) (verClass (48 + 0)) = .cmp := by
        rw [verClass_digit hp10, if_neg (by omega)]; rfl
      simp only [this]
      omega
    rw [r]
    have := lead (ds := ps) hp
    have := pow ps.length
    have z : verVal [0] 0 = 0 := rfl
    rw [z]
    exact ⟨fun h => by omega, fun h => by omega, fun h h' => by omega⟩
  · -- the order of the values is that of the digit strings
    have ord : ∀ {a b : Nat} {as bs : List Nat}, 0 < b → (∀ d ∈ a :: as, d < 10) →
        (∀ d ∈ b :: bs, d < 10) → verLess (a :: as) (b :: bs) →
        verVal (a :: as) 0 < verVal (b :: bs) 0 := by
      intro a b as bs hb h1 h2 h
      rcases h with h | ⟨_, h⟩
      · have k1 := verVal_lt h1
        have k2 := lead (ds := bs) hb
        have : 10 ^ (a :: as).length ≤ 10 ^ bs.length :=
          Nat.pow_le_pow_right (by omega) (by simp only [List.length_cons] at h ⊢; omega)
        omega
      · exact h
    have tri : ∀ a b : List Nat, verLess a b ∨ verLess b a ∨
        (a.length = b.length ∧ verVal a 0 = verVal b 0) := by
      intro a b
      unfold verLess
      omega
    have o1 := ord hq p1 q1
    have o2 := ord hp q1 p1
    have fin : ∀ {r : Int}, VerSign (verLess (p :: ps) (q :: qs)) (verLess (q :: qs) (p :: ps)) r e →
        VerSign (verVal (p :: ps) 0 < verVal (q :: qs) 0) (verVal (q :: qs) 0 < verVal (p :: ps) 0)
          r e := by
      intro r h
      rcases tri (p :: ps) (q :: qs) with c | c | ⟨c1, c⟩
      · have := o1 c
        exact ⟨fun _ => h.neg c, fun h' => by omega, fun h' => absurd this h'⟩
      · have := o2 c
        exact ⟨fun h' => by omega, fun _ => h.pos c, fun _ h' => absurd this h'⟩
      · refine ⟨fun h' => by omega, fun h' => by omega, fun _ _ => h.eq ?_ ?_⟩
        · intro k; have := o1 k; omega
        · intro k; have := o2 k; omega
    refine fin ?_
    have hp10 := p1 p (by simp)
    have hq10 := q1 q (by simp)
    rw [(step (q := 0) ps []).1, (step (p := 0) [] qs).2]
    by_cases hpq : p = q
    · subst hpq
      rw [verLoop_step]
      have : verNext .normal (verClass (48 + p)) = .integral := by
        rw [verClass_digit hp10, if_neg (by omega)]; rfl
      rw [this]
      have := verLoop_integral hx hy ps qs (fun d hd => p1 d (by simp [hd]))
        (fun d hd => q1 d (by simp [hd]))
      rw [he.1] at this
      refine ⟨fun h => this.neg (verLess_same.mp h), fun h => this.pos (verLess_same.mp h),
        fun h h' => this.eq (fun k => h (verLess_same.mpr k)) (fun k => h' (verLess_same.mpr k))⟩
    · rw [verLoop_differ (by simp only [verHead]; omega), verDiffer]
      simp only [verHead, List.tail_cons]
      have : verResult .normal (verClass (48 + p)) (verClass (48 + q)) = .len := by
        rw [verClass_digit hp10, verClass_digit hq10, if_neg (by omega), if_neg (by omega)]; rfl
      simp only [this]
      exact verLen_sign hx hy hpq (fun d hd => p1 d (by simp [hd])) (fun d hd => q1 d (by simp [hd])) _

theorem verEnd_nil : VerEnd [] [] 0 := by
  constructor <;> simp [verLoop, verHead]

theorem verEnd_left (u : List Nat) : VerEnd [] (0x2E :: u) (-46) := by
  constructor <;> rw [verLoop] <;> simp [verHead, verClass, verResult]

theorem verEnd_right (u : List Nat) : VerEnd (0x2E :: u) [] 46 := by
  constructor <;> rw [verLoop] <;> simp [verHead, verClass, verResult]

theorem verEnd_both (u v : List Nat) :
    VerEnd (0x2E :: u) (0x2E :: v) (verLoop .normal u v) := by
  constructor <;> rw [verLoop] <;> simp [verHead, verClass, verNext]

theorem before_irrefl (a : List Nat) : ¬ Before a a := by
  induction a with
  | nil => intro h; cases h
  | cons a as ih =>
    intro h
    cases h with
    | smaller h => omega
    | same h => exact ih h

/-- `strverscmp` orders version numbers by their components. -/
theorem strverscmp_dotted {a b s t : List Nat} (hs : Dotted a s) (ht : Dotted b t) :
    VerSign (Before a b) (Before b a) (strverscmp s t) 0 ∧
      (¬ Before a b → ¬ Before b a → a = b) := by
  unfold strverscmp
  induction hs generalizing b t with
  | @one s m hs =>
    cases ht with
    | @one _ n ht =>
      have h := verLoop_number (x := []) (y := []) rfl rfl hs ht verEnd_nil
      simp only [List.append_nil] at h
      refine ⟨⟨?_, ?_, fun h1 h2 => h.eq (fun k => h1 (.smaller k)) (fun k => h2 (.smaller k))⟩, ?_⟩
      · intro k; cases k with
        | smaller k => exact h.neg k
        | same k => cases k
      · intro k; cases k with
        | smaller k => exact h.pos k
        | same k => cases k
      · intro h1 h2
        have : m = n := by
          rcases Nat.lt_trichotomy m n with k | k | k
          · exact absurd (.smaller k) h1
          · exact k
          · exact absurd (.smaller k) h2
        rw [this]
    | @cons t u n ns ht hd =>
      have h := verLoop_number (x := []) (y := 0x2E :: u) rfl rfl hs ht (verEnd_left u)
      rw [List.append_nil] at h
      have total : Before [m] (n :: ns) ∨ n < m := by
        rcases Nat.lt_trichotomy m n with k | rfl | k
        · exact Or.inl (.smaller k)
        · cases hd <;> exact Or.inl (.same .ends)
        · exact Or.inr k
      refine ⟨⟨?_, ?_, ?_⟩, ?_⟩
      · intro k; cases k with
        | smaller k => exact h.neg k
        | same k => have := h.eq (by omega) (by omega); omega
      · intro k; cases k with
        | smaller k => exact h.pos k
        | same k => cases k
      · intro h1 h2
        rcases total with k | k
        · exact absurd k h1
        · exact absurd (.smaller k) h2
      · intro h1 h2
        rcases total with k | k
        · exact absurd k h1
        · exact absurd (.smaller k) h2
  | @cons s v m ms hs hd' ih =>
    cases ht with
    | @one t n ht =>
      have h := verLoop_number (x := 0x2E :: v) (y := []) rfl rfl hs ht (verEnd_right v)
      rw [List.append_nil] at h
      have total : Before [n] (m :: ms) ∨ m < n := by
        rcases Nat.lt_trichotomy n m with k | rfl | k
        · exact Or.inl (.smaller k)
        · cases hd' <;> exact Or.inl (.same .ends)
        · exact Or.inr k
      refine ⟨⟨?_, ?_, ?_⟩, ?_⟩
      · intro k; cases k with
        | smaller k => exact h.neg k
        | same k => cases k
      · intro k; cases k with
        | smaller k => exact h.pos k
        | same k => have := h.eq (by omega) (by omega); omega
      · intro h1 h2
        rcases total with k | k
        · exact absurd k h2
        · exact absurd (.smaller k) h1
      · intro h1 h2
        rcases total with k | k
        · exact absurd k h2
        · exact absurd (.smaller k) h1
    | @cons t u n ns ht hd =>
      have h := verLoop_number (x := 0x2E :: v) (y := 0x2E :: u) rfl rfl hs ht (verEnd_both v u)
      obtain ⟨i1, i2⟩ := ih hd
      refine ⟨⟨?_, ?_, ?_⟩, ?_⟩
      · intro k; cases k with
        | smaller k => exact h.neg k
        | same k => rw [h.eq (by omega) (by omega)]; exact i1.neg k
      · intro k; cases k with
        | smaller k => exact h.pos k
        | same k => rw [h.eq (by omega) (by omega)]; exact i1.pos k
      · intro h1 h2
        rcases Nat.lt_trichotomy m n with k | rfl | k
        · exact absurd (.smaller k) h1
        · rw [h.eq (by omega) (by omega)]
          exact i1.eq (fun k => h1 (.same k)) (fun k => h2 (.same k))
        · exact absurd (.smaller k) h2
      · intro h1 h2
        rcases Nat.lt_trichotomy m n with k | rfl | k
        · exact absurd (.smaller k) h1
        · rw [i2 (fun k => h1 (.same k)) (fun k => h2 (.same k))]
        · exact absurd (.smaller k) h2

end Idn2
