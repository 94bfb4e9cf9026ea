import Verif.Model.LabelTest
import Verif.Spec.Label

/-
The contextual rules and the Bidi check of the model compared with the declarative
conditions.
-/

namespace Idn2
open Spec

/-! ### Loops -/

theorem forEach_ok {f : Nat → Res Unit} {l : List Nat} :
    forEach f l = .ok () ↔ ∀ c ∈ l, f c = .ok () := by
  induction l with
  | nil => simp [forEach]
  | cons c l ih =>
    simp only [forEach, Res.bind_eq_ok, List.mem_cons, forall_eq_or_imp, ih]
    constructor
    · rintro ⟨_, h1, h2⟩; exact ⟨h1, h2⟩
    · rintro ⟨h1, h2⟩; exact ⟨(), h1, h2⟩

theorem forEach_err {f : Nat → Res Unit} {l : List Nat} {e : Rc} (h : forEach f l = .err e) :
    ∃ c ∈ l, f c = .err e := by
  induction l with
  | nil => simp [forEach] at h
  | cons c l ih =>
    simp only [forEach] at h
    cases hc : f c with
    | ok _ =>
      rw [hc, Res.bind_ok] at h
      obtain ⟨x, hx, hf⟩ := ih h
      exact ⟨x, by simp [hx], hf⟩
    | err e' => rw [hc, Res.bind_err] at h; injection h with h; subst h; exact ⟨c, by simp, hc⟩
    | ub => rw [hc, Res.bind_ub] at h; simp at h

theorem forEach_ub {f : Nat → Res Unit} {l : List Nat} (h : forEach f l = .ub) :
    ∃ c ∈ l, f c = .ub := by
  induction l with
  | nil => simp [forEach] at h
  | cons c l ih =>
    simp only [forEach] at h
    cases hc : f c with
    | ok _ =>
      rw [hc, Res.bind_ok] at h
      obtain ⟨x, hx, hf⟩ := ih h
      exact ⟨x, by simp [hx], hf⟩
    | err e' => rw [hc, Res.bind_err] at h; simp at h
    | ub => exact ⟨c, by simp, hc⟩

/-! ### Tables -/

theorem status_map_is {T : Tables} {D : Data} (h : Implements T D) {c : Nat} (hc : c ≤ 0x10FFFF) :
    ∃ m, get_idna_map T c = .ok m ∧
      map_is T m TR46_FLG_VALID = .ok (D.status c == .valid) ∧
      map_is T m TR46_FLG_MAPPED = .ok (D.status c == .mapped) ∧
      map_is T m TR46_FLG_IGNORED = .ok (D.status c == .ignored) ∧
      map_is T m TR46_FLG_DEVIATION = .ok (D.status c == .deviation) ∧
      map_is T m TR46_FLG_DISALLOWED = .ok (D.status c == .disallowed) ∧
      map_is T m TR46_FLG_DISALLOWED_STD3_MAPPED = .ok (D.status c == .std3Mapped) ∧
      map_is T m TR46_FLG_DISALLOWED_STD3_VALID = .ok (D.status c == .std3Valid) ∧
      m.nmappings = (D.mapping c).length ∧ get_map_data T m = .ok (D.mapping c) := by
  obtain ⟨m, h1, h2, h3, h4⟩ := h.map c hc
  exact ⟨m, h1, h2 .valid, h2 .mapped, h2 .ignored, h2 .deviation, h2 .disallowed, h2 .std3Mapped,
    h2 .std3Valid, h3, h4⟩

theorem disallowed_p_eq {T : Tables} {D : Data} (h : Implements T D) {c : Nat} (hc : c ≤ 0x10FFFF) :
    disallowed_p T c = .ok (D.prop c == .disallowed) := by
  unfold disallowed_p; rw [h.property c hc]; rfl

theorem contextj_p_eq {T : Tables} {D : Data} (h : Implements T D) {c : Nat} (hc : c ≤ 0x10FFFF) :
    contextj_p T c = .ok (D.prop c == .contextj) := by
  unfold contextj_p; rw [h.property c hc]; rfl

theorem contexto_p_eq {T : Tables} {D : Data} (h : Implements T D) {c : Nat} (hc : c ≤ 0x10FFFF) :
    contexto_p T c = .ok (D.prop c == .contexto) := by
  unfold contexto_p; rw [h.property c hc]; rfl

theorem unassigned_p_eq {T : Tables} {D : Data} (h : Implements T D) {c : Nat} (hc : c ≤ 0x10FFFF) :
    unassigned_p T c = .ok (D.prop c == .unassigned) := by
  unfold unassigned_p; rw [h.property c hc]; rfl

/-! ### Bidi -/

theorem isBidi_iff (U : Uni) (label : List Nat) : isBidi U label = true ↔ hasRtl U label := by
  unfold isBidi hasRtl
  rw [List.any_eq_true]
  simp [Bool.or_eq_true, or_assoc]

/-- The last element satisfies `P` (vacuous for the empty list). -/
def lastSat (U : Uni) (P : Bidi → Prop) (r : List Nat) : Prop :=
  ∀ c, r.getLast? = some c → P (U.bidi c)

theorem bidiLtr_ok {U : Uni} (r : List Nat) (e : Bool) :
    bidiLtr U r e = .ok () ↔ (∀ x ∈ r, ltrClass (U.bidi x)) ∧ (r = [] → e = true) ∧
      lastSat U (fun b => b = .L ∨ b = .EN ∨ b = .NSM) r := by
  induction r generalizing e with
  | nil => simp [bidiLtr, lastSat]
  | cons c r ih =>
    simp only [bidiLtr, List.mem_cons, forall_eq_or_imp]
    have hl : lastSat U (fun b => b = .L ∨ b = .EN ∨ b = .NSM) (c :: r) ↔
        (r = [] → (U.bidi c = .L ∨ U.bidi c = .EN ∨ U.bidi c = .NSM)) ∧
        lastSat U (fun b => b = .L ∨ b = .EN ∨ b = .NSM) r := by
      unfold lastSat
      cases r with
      | nil => simp
      | cons x r => simp [List.getLast?_cons_cons]
    rw [hl]
    split
    · rename_i h1
      rw [ih]
      unfold ltrClass
      grind
    · split
      · unfold ltrClass
        grind
      · rw [ih]
        unfold ltrClass
        grind

theorem bidiRtl_ok {U : Uni} (r : List Nat) (e : Bool) :
    bidiRtl U r e = .ok () ↔ (∀ x ∈ r, rtlClass (U.bidi x)) ∧ (r = [] → e = true) ∧
      lastSat U (fun b => b = .R ∨ b = .AL ∨ b = .EN ∨ b = .AN ∨ b = .NSM) r := by
  induction r generalizing e with
  | nil => simp [bidiRtl, lastSat]
  | cons c r ih =>
    simp only [bidiRtl, List.mem_cons, forall_eq_or_imp]
    have hl : lastSat U (fun b => b = .R ∨ b = .AL ∨ b = .EN ∨ b = .AN ∨ b = .NSM) (c :: r) ↔
        (r = [] → (U.bidi c = .R ∨ U.bidi c = .AL ∨ U.bidi c = .EN ∨ U.bidi c = .AN ∨
          U.bidi c = .NSM)) ∧
        lastSat U (fun b => b = .R ∨ b = .AL ∨ b = .EN ∨ b = .AN ∨ b = .NSM) r := by
      unfold lastSat
      cases r with
      | nil => simp
      | cons x r => simp [List.getLast?_cons_cons]
    rw [hl]
    split
    · rename_i h1
      rw [ih]
      unfold rtlClass
      grind
    · split
      · unfold rtlClass
        grind
      · rw [ih]
        unfold rtlClass
        grind

theorem bidi_err {U : Uni} {l : List Nat} : idn2_bidi U l = .ok () ∨ idn2_bidi U l = .err .bidi := by
  have h1 : ∀ r e, bidiLtr U r e = .ok () ∨ bidiLtr U r e = .err .bidi := by
    intro r
    induction r with
    | nil => intro e; cases e <;> simp [bidiLtr]
    | cons c r ih =>
      intro e
      simp only [bidiLtr]
      split
      · exact ih _
      · split
        · simp
        · exact ih _
  have h2 : ∀ r e, bidiRtl U r e = .ok () ∨ bidiRtl U r e = .err .bidi := by
    intro r
    induction r with
    | nil => intro e; cases e <;> simp [bidiRtl]
    | cons c r ih =>
      intro e
      simp only [bidiRtl]
      split
      · exact ih _
      · split
        · simp
        · exact ih _
  unfold idn2_bidi
  split
  · simp
  · rename_i hb
    cases l with
    | nil => simp [isBidi] at hb
    | cons c r =>
      simp only
      split
      · exact h1 _ _
      · split
        · exact h2 _ _
        · simp

/-- Exactly what `_idn2_bidi` accepts. -/
theorem bidi_ok_iff {U : Uni} {l : List Nat} :
    idn2_bidi U l = .ok () ↔ (hasRtl U l →
      ∃ c r, l = c :: r ∧ (U.bidi c = .R ∨ U.bidi c = .AL) ∧ (∀ x ∈ l, rtlClass (U.bidi x)) ∧
        lastSat U (fun b => b = .R ∨ b = .AL ∨ b = .EN ∨ b = .AN ∨ b = .NSM) l) := by
  unfold idn2_bidi
  by_cases hb : isBidi U l = true
  · have hr := (isBidi_iff U l).mp hb
    rw [hb]
    simp only [Bool.not_true, Bool.false_eq_true, ↓reduceIte]
    cases l with
    | nil => simp [isBidi] at hb
    | cons c r =>
      simp only [hr, true_imp_iff]
      by_cases h1 : U.bidi c = .L
      · rw [if_pos h1, bidiLtr_ok]
        constructor
        · rintro ⟨h2, _⟩
          exfalso
          obtain ⟨x, hx, hr⟩ := hr
          rw [List.mem_cons] at hx
          rcases hx with rfl | hx
          · simp [h1] at hr
          · have := h2 x hx
            unfold ltrClass at this
            grind
        · rintro ⟨c', r', h, h2, _⟩
          injection h with h _
          subst h
          simp [h1] at h2
      · rw [if_neg h1]
        by_cases h2 : U.bidi c = .R ∨ U.bidi c = .AL
        · rw [if_pos h2, bidiRtl_ok]
          have hl : lastSat U (fun b => b = .R ∨ b = .AL ∨ b = .EN ∨ b = .AN ∨ b = .NSM) (c :: r) ↔
              lastSat U (fun b => b = .R ∨ b = .AL ∨ b = .EN ∨ b = .AN ∨ b = .NSM) r := by
            unfold lastSat
            cases r with
            | nil => simp; grind
            | cons x r => simp [List.getLast?_cons_cons]
          constructor
          · rintro ⟨h3, _, h5⟩
            refine ⟨c, r, rfl, h2, ?_, hl.mpr h5⟩
            intro x hx
            rw [List.mem_cons] at hx
            rcases hx with rfl | hx
            · unfold rtlClass; grind
            · exact h3 x hx
          · rintro ⟨c', r', h, _, h3, h4⟩
            exact ⟨fun x hx => h3 x (by simp [hx]), by simp, hl.mp h4⟩
        · rw [if_neg h2]
          constructor
          · intro h; simp at h
          · rintro ⟨c', r', h, h3, _⟩
            injection h with h _
            subst h
            exact absurd h3 h2
  · have hr : ¬ hasRtl U l := fun h => hb ((isBidi_iff U l).mpr h)
    simp [hb, hr]

/-! ### CONTEXTJ -/

theorem ctxjBack_spec {U : Uni} {label : List Nat} (tmp : Nat) (h : tmp < label.length) :
    (ctxjBack U label tmp = .ok () ∧ joinsBefore U label (tmp + 1)) ∨
    (ctxjBack U label tmp = .err .contextj ∧ ¬ joinsBefore U label (tmp + 1)) := by
  induction tmp with
  | zero =>
    have hg : label[0]? = some label[0] := List.getElem?_eq_getElem h
    simp only [ctxjBack, rd, hg, Res.bind_ok]
    split
    · rename_i hj
      exact Or.inl ⟨rfl, 0, _, by omega, hg, hj, by intro k x h1 h2; omega⟩
    · rename_i hj
      refine Or.inr ⟨rfl, ?_⟩
      rintro ⟨i, c, hi, hc, hcj, _⟩
      have : i = 0 := by omega
      subst this
      rw [hg] at hc; injection hc with hc; subst hc
      exact hj hcj
  | succ tmp ih =>
    have hg : label[tmp + 1]? = some label[tmp + 1] := List.getElem?_eq_getElem h
    simp only [ctxjBack, rd, hg, Res.bind_ok]
    split
    · rename_i hj
      exact Or.inl ⟨rfl, tmp + 1, _, by omega, hg, hj, by intro k x h1 h2; omega⟩
    · rename_i hj
      split
      · rename_i hT
        rcases ih (by omega) with ⟨h1, i, c, hi, hc, hcj, hk⟩ | ⟨h1, h2⟩
        · refine Or.inl ⟨h1, i, c, by omega, hc, hcj, ?_⟩
          intro k x hk1 hk2 hx
          by_cases hkt : k = tmp + 1
          · subst hkt; rw [hg] at hx; injection hx with hx; subst hx; exact hT
          · exact hk k x hk1 (by omega) hx
        · refine Or.inr ⟨h1, ?_⟩
          rintro ⟨i, c, hi, hc, hcj, hk⟩
          apply h2
          refine ⟨i, c, ?_, hc, hcj, fun k x hk1 hk2 hx => hk k x hk1 (by omega) hx⟩
          by_cases hit : i = tmp + 1
          · subst hit; rw [hg] at hc; injection hc with hc; subst hc; exact absurd hcj hj
          · omega
      · rename_i hT
        refine Or.inr ⟨rfl, ?_⟩
        rintro ⟨i, c, hi, hc, hcj, hk⟩
        by_cases hit : i = tmp + 1
        · subst hit; rw [hg] at hc; injection hc with hc; subst hc; exact hj hcj
        · exact hT (hk (tmp + 1) _ (by omega) (by omega) hg)

theorem ctxjFwd_spec {U : Uni} {label : List Nat} (k tmp : Nat) (hk : 0 < k)
    (h : tmp + k = label.length) :
    (ctxjFwd U label k (tmp) = .ok () ∧ joinsAfter U label (tmp - 1) ∧ 0 < tmp ∨
     ctxjFwd U label k (tmp) = .err .contextj ∧ ¬ joinsAfter U label (tmp - 1) ∧ 0 < tmp) ∨
    tmp = 0 := by
  by_cases h0 : tmp = 0
  · exact Or.inr h0
  left
  induction k generalizing tmp with
  | zero => omega
  | succ k ih =>
    have hlt : tmp < label.length := by omega
    have hg : label[tmp]? = some label[tmp] := List.getElem?_eq_getElem hlt
    simp only [ctxjFwd, rd, hg, Res.bind_ok]
    split
    · rename_i hj
      exact Or.inl ⟨rfl, ⟨tmp, _, by omega, hg, hj, by intro k x h1 h2; omega⟩, by omega⟩
    · rename_i hj
      split
      · rename_i hend
        refine Or.inr ⟨rfl, ?_, by omega⟩
        rintro ⟨j, c, hj1, hc, hcj, _⟩
        have hjl : j < label.length := by
          rcases Nat.lt_or_ge j label.length with h | h
          · exact h
          · rw [List.getElem?_eq_none h] at hc; simp at hc
        have : j = tmp := by omega
        subst this
        rw [hg] at hc; injection hc with hc; subst hc
        exact hj hcj
      · rename_i hend
        split
        · rename_i hT
          rcases ih (tmp + 1) (by omega) (by omega) (by omega) with ⟨h1, ⟨j, c, hj1, hc, hcj, hk'⟩, _⟩ | ⟨h1, h2, _⟩
          · refine Or.inl ⟨h1, ⟨j, c, by omega, hc, hcj, ?_⟩, by omega⟩
            intro m x hm1 hm2 hx
            by_cases hmt : m = tmp
            · subst hmt; rw [hg] at hx; injection hx with hx; subst hx; exact hT
            · exact hk' m x (by omega) hm2 hx
          · refine Or.inr ⟨h1, ?_, by omega⟩
            rintro ⟨j, c, hj1, hc, hcj, hk'⟩
            apply h2
            refine ⟨j, c, ?_, hc, hcj, fun m x hm1 hm2 hx => hk' m x (by omega) hm2 hx⟩
            by_cases hjt : j = tmp
            · subst hjt; rw [hg] at hc; injection hc with hc; subst hc; exact absurd hcj hj
            · omega
        · rename_i hT
          refine Or.inr ⟨rfl, ?_, by omega⟩
          rintro ⟨j, c, hj1, hc, hcj, hk'⟩
          by_cases hjt : j = tmp
          · subst hjt; rw [hg] at hc; injection hc with hc; subst hc; exact hj hcj
          · exact hT (hk' tmp _ (by omega) (by omega) hg)

/-- `_idn2_contextj_rule` at a position of the label. -/
theorem contextj_rule_spec {E : Env} {D : Data} (hI : Implements E.T D) {label : List Nat}
    {pos cp : Nat} (hcp : label[pos]? = some cp) (hr : cp ≤ 0x10FFFF) :
    (contextj_rule E label pos = .ok () ∧ (D.prop cp = .contextj → ContextJ E.U label pos cp)) ∨
    (contextj_rule E label pos = .err .contextj ∧ D.prop cp = .contextj ∧
      (cp = 0x200C ∨ cp = 0x200D) ∧ ¬ ContextJ E.U label pos cp) ∨
    (contextj_rule E label pos = .err .contextjNoRule ∧ D.prop cp = .contextj ∧
      cp ≠ 0x200C ∧ cp ≠ 0x200D) := by
  have hlt : pos < label.length := by
    rcases Nat.lt_or_ge pos label.length with h | h
    · exact h
    · rw [List.getElem?_eq_none h] at hcp; simp at hcp
  unfold contextj_rule
  rw [if_neg (by omega)]
  simp only [rd, hcp, Res.bind_ok, contextj_p_eq hI hr]
  by_cases hj : D.prop cp = .contextj
  · simp only [hj, beq_self_eq_true, Bool.not_true, Bool.false_eq_true, ↓reduceIte]
    have hvr : ∃ b : Bool, vrBefore E.U label pos = Res.ok b ∧
        (b = true ↔ viramaBefore E.U label pos) := by
      unfold vrBefore
      by_cases hp : pos > 0
      · have hg : label[pos - 1]? = some label[pos - 1] := List.getElem?_eq_getElem (by omega)
        rw [if_pos hp]
        refine ⟨_, by simp only [rd, hg, Res.bind_ok, Res.pure_eq]; rfl, ?_⟩
        unfold viramaBefore UC_CCC_VR
        rw [hg]
        simp [hp]
      · rw [if_neg hp]
        refine ⟨false, rfl, ?_⟩
        unfold viramaBefore
        constructor
        · intro h; simp at h
        · rintro ⟨c, h, _⟩; exact absurd h hp
    obtain ⟨b, hb1, hb2⟩ := hvr
    by_cases h1 : cp = 0x200C
    · subst h1
      simp only [↓reduceIte, hb1, Res.bind_ok]
      cases b with
      | true =>
        simp only [↓reduceIte]
        exact Or.inl ⟨trivial, fun _ => Or.inl ⟨rfl, Or.inl (hb2.mp rfl)⟩⟩
      | false =>
        have hnv : ¬ viramaBefore E.U label pos := fun h => by simpa using hb2.mpr h
        simp only [Bool.false_eq_true, ↓reduceIte]
        by_cases hend : pos = 0 ∨ pos = label.length - 1
        · rw [if_pos hend]
          refine Or.inr (Or.inl ⟨rfl, trivial, Or.inl trivial, ?_⟩)
          rintro (⟨_, h | ⟨⟨i, c, hi, _⟩, ⟨j, c', hj1, hc', _⟩⟩⟩ | ⟨h, _⟩)
          · exact hnv h
          · have hjl : j < label.length := by
              rcases Nat.lt_or_ge j label.length with h | h
              · exact h
              · rw [List.getElem?_eq_none h] at hc'; simp at hc'
            omega
          · simp at h
        · rw [if_neg hend]
          have e1 : pos - 1 + 1 = pos := by omega
          rcases ctxjBack_spec (U := E.U) (label := label) (pos - 1) (by omega) with ⟨h1, h2⟩ | ⟨h1, h2⟩
          · rw [h1, Res.bind_ok]
            rw [e1] at h2
            rcases ctxjFwd_spec (U := E.U) (label := label) (label.length - (pos + 1)) (pos + 1)
                (by omega) (by omega) with (⟨h3, h4, _⟩ | ⟨h3, h4, _⟩) | h
            · exact Or.inl ⟨h3, fun _ => Or.inl ⟨rfl, Or.inr ⟨h2, by simpa using h4⟩⟩⟩
            · refine Or.inr (Or.inl ⟨h3, trivial, Or.inl trivial, ?_⟩)
              rintro (⟨_, h | ⟨_, h⟩⟩ | ⟨h, _⟩)
              · exact hnv h
              · exact h4 (by simpa using h)
              · simp at h
            · omega
          · rw [h1, Res.bind_err]
            rw [e1] at h2
            refine Or.inr (Or.inl ⟨rfl, trivial, Or.inl trivial, ?_⟩)
            rintro (⟨_, h | ⟨h, _⟩⟩ | ⟨h, _⟩)
            · exact hnv h
            · exact h2 h
            · simp at h
    · by_cases h2 : cp = 0x200D
      · subst h2
        rw [if_neg h1]
        simp only [↓reduceIte, hb1, Res.bind_ok]
        cases b with
        | true => exact Or.inl ⟨rfl, fun _ => Or.inr ⟨rfl, hb2.mp rfl⟩⟩
        | false =>
          have hnv : ¬ viramaBefore E.U label pos := fun h => by simpa using hb2.mpr h
          refine Or.inr (Or.inl ⟨rfl, trivial, Or.inr trivial, ?_⟩)
          rintro (⟨h, _⟩ | ⟨_, h⟩)
          · simp at h
          · exact hnv h
      · rw [if_neg h1, if_neg h2]
        exact Or.inr (Or.inr ⟨rfl, trivial, h1, h2⟩)
  · have : (D.prop cp == IdnaProp.contextj) = false := by simp [hj]
    simp only [this, Bool.not_false, ↓reduceIte]
    exact Or.inl ⟨trivial, fun h => absurd h hj⟩

/-! ### CONTEXTO -/

theorem contexto_with_rule_iff (cp : Nat) : contexto_with_rule cp = true ↔ hasContextO cp := by
  unfold contexto_with_rule hasContextO
  simp
  omega

/-- `_idn2_contexto_rule` at a position of the label. -/
theorem contexto_rule_spec {E : Env} {D : Data} (hI : Implements E.T D) {label : List Nat}
    {pos cp : Nat} (hcp : label[pos]? = some cp) (hr : cp ≤ 0x10FFFF) :
    (contexto_rule E label pos = .ok () ∧ (D.prop cp = .contexto → ContextO E.U label pos cp)) ∨
    (contexto_rule E label pos = .err .contexto ∧ D.prop cp = .contexto ∧
      hasContextO cp ∧ ¬ ContextO E.U label pos cp) ∨
    (contexto_rule E label pos = .err .contextoNoRule ∧ D.prop cp = .contexto ∧
      ¬ hasContextO cp) := by
  have hlt : pos < label.length := by
    rcases Nat.lt_or_ge pos label.length with h | h
    · exact h
    · rw [List.getElem?_eq_none h] at hcp; simp at hcp
  have hsucc : ∀ {c}, label[pos + 1]? = some c → pos + 1 < label.length := by
    intro c hc
    rcases Nat.lt_or_ge (pos + 1) label.length with h | h
    · exact h
    · rw [List.getElem?_eq_none h] at hc; simp at hc
  unfold contexto_rule
  simp only [rd, hcp, Res.bind_ok, contexto_p_eq hI hr]
  by_cases ho : D.prop cp = .contexto
  · simp only [ho, beq_self_eq_true, Bool.not_true, Bool.false_eq_true, ↓reduceIte, true_imp_iff]
    by_cases h1 : cp = 0xB7
    · subst h1
      simp only [↓reduceIte]
      have hh : hasContextO 0xB7 := Or.inl rfl
      have hspec : ContextO E.U label pos 0xB7 ↔
          (0 < pos ∧ label[pos - 1]? = some 0x6C ∧ label[pos + 1]? = some 0x6C) := by
        unfold ContextO; simp
      rw [hspec]
      by_cases hlen : label.length < 3
      · rw [if_pos hlen]
        refine Or.inr (Or.inl ⟨rfl, trivial, hh, ?_⟩)
        rintro ⟨hp, _, h⟩
        have := hsucc h
        omega
      · rw [if_neg hlen]
        by_cases hend : pos = 0 ∨ pos = label.length - 1
        · rw [if_pos hend]
          refine Or.inr (Or.inl ⟨rfl, trivial, hh, ?_⟩)
          rintro ⟨hp, _, h⟩
          have := hsucc h
          omega
        · rw [if_neg hend]
          have hg1 : label[pos - 1]? = some label[pos - 1] := List.getElem?_eq_getElem (by omega)
          have hg2 : label[pos + 1]? = some label[pos + 1] := List.getElem?_eq_getElem (by omega)
          simp only [hg1, hg2, Res.bind_ok]
          by_cases ha : label[pos - 1] = 0x6C
          · rw [if_pos ha]
            by_cases hb : label[pos + 1] = 0x6C
            · rw [if_pos hb]
              exact Or.inl ⟨rfl, by omega, by rw [ha], by rw [hb]⟩
            · rw [if_neg hb]
              exact Or.inr (Or.inl ⟨rfl, trivial, hh, by simp [hb]⟩)
          · rw [if_neg ha]
            exact Or.inr (Or.inl ⟨rfl, trivial, hh, by simp [ha]⟩)
    · rw [if_neg h1]
      by_cases h2 : cp = 0x375
      · subst h2
        simp only [↓reduceIte]
        have hh : hasContextO 0x375 := Or.inr (Or.inl rfl)
        have hspec : ContextO E.U label pos 0x375 ↔
            ∃ c, label[pos + 1]? = some c ∧ E.U.script c = .greek := by
          unfold ContextO; simp
        rw [hspec]
        by_cases hend : pos = label.length - 1
        · rw [if_pos hend]
          refine Or.inr (Or.inl ⟨rfl, trivial, hh, ?_⟩)
          rintro ⟨c, h, _⟩
          have := hsucc h
          omega
        · rw [if_neg hend]
          have hg2 : label[pos + 1]? = some label[pos + 1] := List.getElem?_eq_getElem (by omega)
          simp only [hg2, Res.bind_ok]
          by_cases hb : E.U.script label[pos + 1] = .greek
          · rw [if_pos hb]; exact Or.inl ⟨rfl, _, rfl, hb⟩
          · rw [if_neg hb]
            refine Or.inr (Or.inl ⟨rfl, trivial, hh, ?_⟩)
            rintro ⟨c, h, h'⟩
            injection h with h
            subst h
            exact hb h'
      · rw [if_neg h2]
        by_cases h3 : cp = 0x5F3 ∨ cp = 0x5F4
        · rw [if_pos h3]
          have hh : hasContextO cp := by unfold hasContextO; omega
          have hspec : ContextO E.U label pos cp ↔
              0 < pos ∧ ∃ c, label[pos - 1]? = some c ∧ E.U.script c = .hebrew := by
            unfold ContextO
            constructor
            · rintro (h | h | h | h | h | h)
              · omega
              · omega
              · exact h.2
              · omega
              · omega
              · omega
            · intro h; exact Or.inr (Or.inr (Or.inl ⟨h3, h⟩))
          rw [hspec]
          by_cases hp : pos = 0
          · rw [if_pos hp]
            exact Or.inr (Or.inl ⟨rfl, trivial, hh, by omega⟩)
          · rw [if_neg hp]
            have hg1 : label[pos - 1]? = some label[pos - 1] := List.getElem?_eq_getElem (by omega)
            simp only [hg1, Res.bind_ok]
            by_cases hb : E.U.script label[pos - 1] = .hebrew
            · rw [if_pos hb]; exact Or.inl ⟨rfl, by omega, _, rfl, hb⟩
            · rw [if_neg hb]
              refine Or.inr (Or.inl ⟨rfl, trivial, hh, ?_⟩)
              rintro ⟨_, c, h, h'⟩
              injection h with h
              subst h
              exact hb h'
        · rw [if_neg h3]
          by_cases h4 : 0x660 ≤ cp ∧ cp ≤ 0x669
          · rw [if_pos h4]
            have hh : hasContextO cp := by unfold hasContextO; omega
            have hspec : ContextO E.U label pos cp ↔ ∀ c ∈ label, ¬ (0x6F0 ≤ c ∧ c ≤ 0x6F9) := by
              unfold ContextO
              constructor
              · rintro (h | h | h | h | h | h)
                · omega
                · omega
                · omega
                · omega
                · exact h.2.2
                · omega
              · intro h; exact Or.inr (Or.inr (Or.inr (Or.inr (Or.inl ⟨h4.1, h4.2, h⟩))))
            rw [hspec]
            by_cases ha : label.any (fun c => decide (c ≥ 0x6F0 ∧ c ≤ 0x6F9)) = true
            · rw [if_pos ha]
              refine Or.inr (Or.inl ⟨rfl, trivial, hh, ?_⟩)
              intro h
              rw [List.any_eq_true] at ha
              obtain ⟨c, hc, hd⟩ := ha
              exact h c hc (of_decide_eq_true hd)
            · rw [if_neg ha]
              refine Or.inl ⟨rfl, ?_⟩
              intro c hc h
              apply ha
              rw [List.any_eq_true]
              exact ⟨c, hc, decide_eq_true h⟩
          · rw [if_neg h4]
            by_cases h5 : 0x6F0 ≤ cp ∧ cp ≤ 0x6F9
            · rw [if_pos h5]
              have hh : hasContextO cp := by unfold hasContextO; omega
              have hspec : ContextO E.U label pos cp ↔ ∀ c ∈ label, ¬ (0x660 ≤ c ∧ c ≤ 0x669) := by
                unfold ContextO
                constructor
                · rintro (h | h | h | h | h | h)
                  · omega
                  · omega
                  · omega
                  · omega
                  · omega
                  · exact h.2.2
                · intro h; exact Or.inr (Or.inr (Or.inr (Or.inr (Or.inr ⟨h5.1, h5.2, h⟩))))
              rw [hspec]
              by_cases ha : label.any (fun c => decide (c ≥ 0x660 ∧ c ≤ 0x669)) = true
              · rw [if_pos ha]
                refine Or.inr (Or.inl ⟨rfl, trivial, hh, ?_⟩)
                intro h
                rw [List.any_eq_true] at ha
                obtain ⟨c, hc, hd⟩ := ha
                exact h c hc (of_decide_eq_true hd)
              · rw [if_neg ha]
                refine Or.inl ⟨rfl, ?_⟩
                intro c hc h
                apply ha
                rw [List.any_eq_true]
                exact ⟨c, hc, decide_eq_true h⟩
            · rw [if_neg h5]
              by_cases h6 : cp = 0x30FB
              · subst h6
                simp only [↓reduceIte]
                have hh : hasContextO 0x30FB := by unfold hasContextO; omega
                have hspec : ContextO E.U label pos 0x30FB ↔ ∃ c ∈ label,
                    E.U.script c = .hiragana ∨ E.U.script c = .katakana ∨ E.U.script c = .han := by
                  unfold ContextO; simp
                rw [hspec]
                by_cases ha : label.any (fun c => E.U.script c == .hiragana ||
                    E.U.script c == .katakana || E.U.script c == .han) = true
                · rw [if_pos ha]
                  refine Or.inl ⟨rfl, ?_⟩
                  rw [List.any_eq_true] at ha
                  obtain ⟨c, hc, hd⟩ := ha
                  exact ⟨c, hc, by simpa [or_assoc] using hd⟩
                · rw [if_neg ha]
                  refine Or.inr (Or.inl ⟨rfl, trivial, hh, ?_⟩)
                  rintro ⟨c, hc, hd⟩
                  apply ha
                  rw [List.any_eq_true]
                  exact ⟨c, hc, by simpa [or_assoc] using hd⟩
              · rw [if_neg h6]
                refine Or.inr (Or.inr ⟨rfl, trivial, ?_⟩)
                unfold hasContextO; omega
  · have : (D.prop cp == IdnaProp.contexto) = false := by simp [ho]
    simp only [this, Bool.not_false, ↓reduceIte]
    exact Or.inl ⟨trivial, fun h => absurd h ho⟩

end Idn2
