import Verif.Model.GenPrint
import Verif.Spec.CText
import Verif.Proof.GenOut

/-
What the generators print, read as C: tokens, objects and values.
-/

namespace Idn2
open Spec

/-! ### Reading pieces of text -/

theorem lex_app {s s' s'' : C.Lex} {a b : List Nat} {ts us : List C.Tok}
    (h : C.lexRun s a = some (s', ts)) (h' : C.lexRun s' b = some (s'', us)) :
    C.lexRun s (a ++ b) = some (s'', ts ++ us) := by
  induction a generalizing s ts with
  | nil => simp only [C.lexRun, Option.some.injEq, Prod.mk.injEq] at h; obtain ⟨rfl, rfl⟩ := h; simpa using h'
  | cons c r ih =>
    simp only [C.lexRun, List.cons_append] at h ⊢
    cases hs : C.lexStep s c with
    | none => rw [hs] at h; cases h
    | some x =>
      obtain ⟨s1, t1⟩ := x
      rw [hs] at h
      simp only at h ⊢
      cases hr : C.lexRun s1 r with
      | none => rw [hr] at h; cases h
      | some y =>
        obtain ⟨s2, t2⟩ := y
        rw [hr] at h
        simp only [Option.some.injEq, Prod.mk.injEq] at h
        obtain ⟨rfl, rfl⟩ := h
        rw [ih hr]
        simp

theorem par_app {s s' s'' : C.Par} {a b : List C.Tok} {ts us : List C.Obj}
    (h : C.parRun s a = some (s', ts)) (h' : C.parRun s' b = some (s'', us)) :
    C.parRun s (a ++ b) = some (s'', ts ++ us) := by
  induction a generalizing s ts with
  | nil => simp only [C.parRun, Option.some.injEq, Prod.mk.injEq] at h; obtain ⟨rfl, rfl⟩ := h; simpa using h'
  | cons c r ih =>
    simp only [C.parRun, List.cons_append] at h ⊢
    cases hs : C.parStep s c with
    | none => rw [hs] at h; cases h
    | some x =>
      obtain ⟨s1, t1⟩ := x
      rw [hs] at h
      simp only at h ⊢
      cases hr : C.parRun s1 r with
      | none => rw [hr] at h; cases h
      | some y =>
        obtain ⟨s2, t2⟩ := y
        rw [hr] at h
        simp only [Option.some.injEq, Prod.mk.injEq] at h
        obtain ⟨rfl, rfl⟩ := h
        rw [ih hr]
        simp

/-- Characters of words are collected. -/
theorem lex_word {v w : List Nat} (h : ∀ c ∈ w, C.wordChar c = true) :
    C.lexRun (.word v) w = some (.word (v ++ w), []) := by
  induction w generalizing v with
  | nil => simp [C.lexRun]
  | cons c r ih =>
    have hc := h c (by simp)
    simp only [C.lexRun, C.lexStep, hc, if_true]
    rw [ih (v := v ++ [c]) fun x hx => h x (by simp [hx])]
    simp

/-- A word inside of a line, from the beginning. -/
theorem lex_word_top {w : List Nat} (h : ∀ c ∈ w, C.wordChar c = true) (hne : w ≠ []) :
    C.lexRun .top w = some (.word w, []) := by
  cases w with
  | nil => exact absurd rfl hne
  | cons c r =>
    have hc := h c (by simp)
    have hs : ¬ (c = 32 ∨ c = 9 ∨ c = 10 ∨ c = 13) := by
      rintro (rfl | rfl | rfl | rfl) <;> exact absurd hc (by decide)
    simp only [C.lexRun, C.lexStep, C.lexTop, if_neg hs, hc, if_true]
    rw [lex_word fun x hx => h x (by simp [hx])]
    simp

/-- The character behind a word. -/
theorem lex_word_end {w : List Nat} {c : Nat} {r : List Nat} (hc : C.wordChar c = false)
    {s : C.Lex} {ts : List C.Tok} (h : C.lexRun .top (c :: r) = some (s, ts)) :
    C.lexRun (.word w) (c :: r) = some (s, .word w :: ts) := by
  simp only [C.lexRun, C.lexStep] at h ⊢
  rw [if_neg (by rw [hc]; decide)]
  cases hs : C.lexTop c with
  | none => rw [hs] at h; cases h
  | some x =>
    rw [hs] at h
    simp only [Option.map_some] at h ⊢
    cases hr : C.lexRun x.1 r with
    | none => rw [hr] at h; cases h
    | some y =>
      rw [hr] at h
      simp only [Option.some.injEq, Prod.mk.injEq] at h
      obtain ⟨rfl, rfl⟩ := h
      simp

/-! ### Numbers -/

theorem digitChar_word {d : Nat} (h : d < 16) : C.wordChar (digitChar d) = true := by
  have : ∀ d, d < 16 → C.wordChar (digitChar d) = true := by decide
  exact this d h

theorem digit_digitChar {d : Nat} (h : d < 16) : C.digit (digitChar d) = some d := by
  have : ∀ d, d < 16 → C.digit (digitChar d) = some d := by decide
  exact this d h

theorem printDigits_word {b : Nat} (hb : 0 < b) (hb' : b ≤ 16) (k n : Nat) :
    ∀ c ∈ printDigits b k n, C.wordChar c = true := by
  induction k generalizing n with
  | zero => intro c hc; cases hc
  | succ k ih =>
    intro c hc
    simp only [printDigits] at hc
    split at hc
    · rename_i hn
      rw [List.mem_singleton.mp hc]
      exact digitChar_word (by omega)
    · rcases List.mem_append.mp hc with hc | hc
      · exact ih _ c hc
      · rw [List.mem_singleton.mp hc]
        exact digitChar_word (by have := Nat.mod_lt n hb; omega)

theorem printDigits_ne {b k n : Nat} : printDigits b (k + 1) n ≠ [] := by
  simp only [printDigits]
  split <;> simp

theorem digits_printDigits {b : Nat} (hb : 2 ≤ b) (hb' : b ≤ 16) (k n : Nat) (hn : n < b ^ k)
    (r : List Nat) : C.digits b 0 (printDigits b k n ++ r) = C.digits b n r := by
  induction k generalizing n r with
  | zero => simp only [Nat.pow_zero] at hn; have : n = 0 := by omega
            subst this; rfl
  | succ k ih =>
    simp only [printDigits]
    split
    · rename_i h
      simp [C.digits, digit_digitChar (show n < 16 by omega), h]
    · have h1 : n / b < b ^ k := by
        rw [Nat.div_lt_iff_lt_mul (by omega)]
        rw [Nat.pow_succ] at hn; exact hn
      have h2 := Nat.mod_lt n (show b > 0 by omega)
      rw [List.append_assoc, ih _ h1]
      simp only [List.cons_append, List.nil_append, C.digits,
        digit_digitChar (show n % b < 16 by omega), if_pos h2, Nat.div_add_mod]

theorem printDigits_head {b : Nat} (hb : 2 ≤ b) (hb' : b ≤ 16) (k n : Nat) (hn : n < b ^ k)
    (h0 : 0 < n) : ∃ c r, printDigits b k n = c :: r ∧ c ≠ 48 := by
  induction k generalizing n with
  | zero => simp only [Nat.pow_zero] at hn; omega
  | succ k ih =>
    simp only [printDigits]
    split
    · refine ⟨_, _, rfl, ?_⟩
      unfold digitChar; split <;> omega
    · rename_i h
      have h1 : n / b < b ^ k := by
        rw [Nat.div_lt_iff_lt_mul (by omega)]
        rw [Nat.pow_succ] at hn; exact hn
      obtain ⟨c, r, hc, hne⟩ := ih (n / b) h1 (Nat.div_pos (by omega) (by omega))
      exact ⟨c, r ++ [digitChar (n % b)], by rw [hc]; rfl, hne⟩

theorem u32_lt' (n : Nat) : u32 n < 2 ^ 32 := by unfold u32; omega

theorem printX_word (n : Nat) : ∀ c ∈ printX n, C.wordChar c = true :=
  printDigits_word (by decide) (by decide) _ _

theorem printX_ne (n : Nat) : printX n ≠ [] := printDigits_ne

theorem number_printX (n : Nat) : C.number (str "0x" ++ printX n) = some (u32 n) := by
  have h : C.digits 16 0 (printX n) = some (u32 n) := by
    have := digits_printDigits (b := 16) (by decide) (by decide) 10 (u32 n)
      (by have := u32_lt' n; omega) []
    rw [List.append_nil] at this
    exact this
  have e : str "0x" ++ printX n = 48 :: 0x78 :: printX n := rfl
  rw [e]
  simp only [C.number, if_true, and_self, ne_eq, printX_ne, not_false_eq_true]
  exact h

theorem print02X_word (n : Nat) : ∀ c ∈ print02X n, C.wordChar c = true := by
  unfold print02X
  split
  · intro c hc
    rcases List.mem_cons.mp hc with rfl | hc
    · decide
    · exact printX_word n c hc
  · exact printX_word n

theorem number_print02X (n : Nat) : C.number (str "0x" ++ print02X n) = some (u32 n) := by
  have h : C.digits 16 0 (printX n) = some (u32 n) := by
    have := digits_printDigits (b := 16) (by decide) (by decide) 10 (u32 n)
      (by have := u32_lt' n; omega) []
    rw [List.append_nil] at this
    exact this
  unfold print02X
  split
  · have e : str "0x" ++ (48 :: printX n) = 48 :: 0x78 :: 48 :: printX n := rfl
    rw [e]
    simp only [C.number, if_true, and_self, ne_eq, reduceCtorEq, not_false_eq_true]
    have : C.digits 16 0 (48 :: printX n) = C.digits 16 0 (printX n) := by
      conv => lhs; unfold C.digits
      rfl
    rw [this, h]
  · exact number_printX n

theorem printU_word (n : Nat) : ∀ c ∈ printU n, C.wordChar c = true :=
  printDigits_word (by decide) (by decide) _ _

theorem printU_ne (n : Nat) : printU n ≠ [] := printDigits_ne

theorem number_printU (n : Nat) : C.number (printU n) = some (u32 n) := by
  have hlt : u32 n < 10 ^ 10 := by have := u32_lt' n; omega
  have h : C.digits 10 0 (printU n) = some (u32 n) := by
    have := digits_printDigits (b := 10) (by decide) (by decide) 10 (u32 n) hlt []
    rw [List.append_nil] at this
    exact this
  cases hp : printU n with
  | nil => exact absurd hp (printU_ne n)
  | cons c r =>
    rw [hp] at h
    cases r with
    | nil => exact h
    | cons d r =>
      have hc : c ≠ 48 := by
        by_cases h0 : u32 n = 0
        · have : printU n = [48] := by unfold printU; rw [h0]; rfl
          rw [this] at hp; cases hp
        · obtain ⟨c', r', h1, h2⟩ := printDigits_head (b := 10) (by decide) (by decide) 10 (u32 n)
            hlt (by omega)
          have : printU n = c' :: r' := h1
          rw [this] at hp
          injection hp with hp _
          rw [← hp]; exact h2
      simp only [C.number, if_neg hc]
      exact h

/-! ### Arrays of bytes -/

/-- The tokens of a list of words, each followed by a comma. -/
def commaToks (ws : List (List Nat)) : List C.Tok := ws.flatMap fun w => [.word w, .punct 0x2C]

theorem lex_comma {w : List Nat} (h : ∀ c ∈ w, C.wordChar c = true) (hne : w ≠ []) :
    C.lexRun .top (w ++ str ",") = some (.top, [.word w, .punct 0x2C]) :=
  lex_app (lex_word_top h hne) (lex_word_end (c := 0x2C) (r := []) (by decide) (by decide))

theorem hexWord (n : Nat) :
    (∀ c ∈ str "0x" ++ printX n, C.wordChar c = true) ∧ str "0x" ++ printX n ≠ [] := by
  refine ⟨fun c hc => ?_, by simp [printX_ne]⟩
  rcases List.mem_append.mp hc with hc | hc
  · have : ∀ c ∈ str "0x", C.wordChar c = true := by decide
    exact this c hc
  · exact printX_word n c hc

theorem hexWord2 (n : Nat) :
    (∀ c ∈ str "0x" ++ print02X n, C.wordChar c = true) ∧ str "0x" ++ print02X n ≠ [] := by
  refine ⟨fun c hc => ?_, ?_⟩
  · rcases List.mem_append.mp hc with hc | hc
    · have : ∀ c ∈ str "0x", C.wordChar c = true := by decide
      exact this c hc
    · exact print02X_word n c hc
  · intro h
    have := congrArg List.length h
    simp [str] at this

theorem lex_bytes (bs : List Nat) :
    C.lexRun .top (bs.flatMap fun b => str "0x" ++ printX b ++ str ",") =
      some (.top, commaToks (bs.map fun b => str "0x" ++ printX b)) := by
  induction bs with
  | nil => rfl
  | cons b r ih =>
    exact lex_app (lex_comma (hexWord b).1 (hexWord b).2) ih

theorem lex_mapdata (bs : List Nat) (it : Nat) :
    C.lexRun .top (printMapdata it bs) =
      some (.top, commaToks (bs.map fun b => str "0x" ++ print02X b)) := by
  induction bs generalizing it with
  | nil => rfl
  | cons b r ih =>
    have h1 := lex_comma (hexWord2 b).1 (hexWord2 b).2
    have h2 : C.lexRun .top (if it % 16 = 15 then [10] else []) = some (.top, []) := by
      split <;> rfl
    have := lex_app (lex_app h1 h2) (ih (it + 1))
    simpa [printMapdata, commaToks] using this

theorem lex_tr46 (min max : Nat) (l : List MapGen) :
    C.lexRun .top (print_tr46_text min max l) =
      some (.top, commaToks ((print_tr46_map min max l).map fun b => str "0x" ++ printX b)) := by
  have parts : ∀ (map : MapGen) (ps : List (Nat × Nat)),
      C.lexRun .top (ps.flatMap (printPart max map)) =
        some (.top, commaToks ((ps.flatMap (printRecord max map)).map
          fun b => str "0x" ++ printX b)) := by
    intro map ps
    induction ps with
    | nil => rfl
    | cons p ps ih =>
      have h := lex_app (lex_app (lex_bytes (printRecord max map p))
        (show C.lexRun .top [10] = some (.top, []) from rfl)) ih
      simpa [printPart, commaToks] using h
  induction l with
  | nil => rfl
  | cons map r ih =>
    simp only [print_tr46_text, print_tr46_map]
    split
    · exact ih
    · split
      · rfl
      · have := lex_app (parts map (splitEntry map.cp2 ((map.cp2 - map.cp1) / 0x10000) map.cp1)) ih
        simpa [commaToks] using this

theorem par_comma (ws : List (List Nat)) (d : List (List Nat)) (n : Option (List Nat))
    (es : List (List (List Nat))) :
    C.parRun (.elems d n es) (commaToks ws) = some (.elems d n (es ++ ws.map fun w => [w]), []) := by
  induction ws generalizing es with
  | nil => simp [commaToks, C.parRun]
  | cons w ws ih =>
    have h : C.parRun (.elems d n es) [.word w, .punct 0x2C] =
        some (.elems d n (es ++ [[w]]), []) := by
      simp [C.parRun, C.parStep]
    have := par_app h (ih (es ++ [[w]]))
    simpa [commaToks] using this

/-- The tokens of the definition of an array. -/
theorem par_array {d1 d2 d3 name n : List Nat} {ts : List C.Tok} {es : List (List (List Nat))}
    (h : C.parRun (.elems [d1, d2, d3, name] (some n) []) ts =
      some (.elems [d1, d2, d3, name] (some n) es, [])) :
    C.parRun (.decl []) ([.word d1, .word d2, .word d3, .word name, .punct 0x5B, .word n,
      .punct 0x5D, .punct 0x3D, .punct 0x7B] ++ ts ++ [.punct 0x7D, .punct 0x3B]) =
      some (.decl [], [⟨[d1, d2, d3, name], some (some n), es⟩]) := by
  have h1 : C.parRun (.decl []) [.word d1, .word d2, .word d3, .word name, .punct 0x5B, .word n,
      .punct 0x5D, .punct 0x3D, .punct 0x7B] = some (.elems [d1, d2, d3, name] (some n) [], []) := by
    simp [C.parRun, C.parStep]
  have h3 : C.parRun (.elems [d1, d2, d3, name] (some n) es) [.punct 0x7D, .punct 0x3B] =
      some (.decl [], [⟨[d1, d2, d3, name], some (some n), es⟩]) := by
    simp [C.parRun, C.parStep]
  exact par_app (par_app h1 h) h3

theorem collect_map {α β γ : Type} {f : β → Option γ} {g : α → β} {k : α → γ} {l : List α}
    (h : ∀ a ∈ l, f (g a) = some (k a)) : C.collect f (l.map g) = some (l.map k) := by
  induction l with
  | nil => rfl
  | cons a r ih =>
    simp only [List.map_cons, C.collect, h a (by simp), ih fun x hx => h x (by simp [hx])]

theorem array_full {α β : Type} {zero : α} {f : List (List Nat) → Option α}
    {g : β → List (List Nat)} {k : β → α} {l : List β} {d : List (List Nat)}
    (h : ∀ a ∈ l, f (g a) = some (k a)) (hl : l.length < 2 ^ 32) :
    C.array zero f ⟨d, some (some (printU l.length)), l.map g⟩ = some (l.map k) := by
  simp [C.array, collect_map h, C.bound, number_printU, u32_of_lt hl]

theorem u8_hex {b : Nat} (h : b < 256) : C.u8 [str "0x" ++ printX b] = some b := by
  simp only [C.u8, number_printX, u32_of_lt (show b < 2 ^ 32 by omega), Option.map_some,
    Nat.mod_eq_of_lt h]

theorem u8_hex2 {b : Nat} (h : b < 256) : C.u8 [str "0x" ++ print02X b] = some b := by
  simp only [C.u8, number_print02X, u32_of_lt (show b < 2 ^ 32 by omega), Option.map_some,
    Nat.mod_eq_of_lt h]

/-! ### The text of tr46map_data.c -/

/-- The tokens up to the elements of an array. -/
def headToks (ty name : String) (n : List Nat) : List C.Tok :=
  [.word (str "static"), .word (str "const"), .word (str ty), .word (str name), .punct 0x5B,
    .word n, .punct 0x5D, .punct 0x3D, .punct 0x7B]

/-- The tokens of an array. -/
def arrayToks (ty name : String) (n : List Nat) (ts : List C.Tok) : List C.Tok :=
  headToks ty name n ++ ts ++ [.punct 0x7D, .punct 0x3B]

theorem lex_array {ty name : String} {a b x z : List Nat} {ts : List C.Tok} (n : Nat)
    (ha : C.lexRun .top a = some (.top, [.word (str "static"), .word (str "const"),
      .word (str ty), .word (str name), .punct 0x5B]))
    (hb : b = str "] =\n{" ∨ b = str "] = {\n") (hx : C.lexRun .top x = some (.top, ts))
    (hz : C.lexRun .top z = some (.top, [.punct 0x7D, .punct 0x3B])) :
    C.lexRun .top (a ++ printU n ++ b ++ x ++ z) =
      some (.top, arrayToks ty name (printU n) ts) := by
  have h1 := lex_word_top (printU_word n) (printU_ne n)
  have h2 : C.lexRun (.word (printU n)) b =
      some (.top, [.word (printU n), .punct 0x5D, .punct 0x3D, .punct 0x7B]) := by
    rcases hb with rfl | rfl
    · exact lex_word_end (c := 0x5D) (r := str " =\n{") (by decide) (by decide)
    · exact lex_word_end (c := 0x5D) (r := str " = {\n") (by decide) (by decide)
  have := lex_app (lex_app (lex_app (lex_app ha h1) h2) hx) hz
  rw [this]
  simp [arrayToks, headToks]

/-- The tokens of an entry of `nfcqc_map`. -/
def qcToks (r : QcRow) : List C.Tok :=
  [.punct 0x7B, .word (str "0x" ++ printX r.first), .punct 0x2C, .word (str "0x" ++ printX r.last),
    .punct 0x2C, .word (printU r.check), .punct 0x7D, .punct 0x2C]

theorem lex_qc (r : QcRow) : C.lexRun .top (printQc r) = some (.top, qcToks r) := by
  have h0 : C.lexRun .top (str "{") = some (.top, [.punct 0x7B]) := by decide
  have h1 := lex_comma (hexWord r.first).1 (hexWord r.first).2
  have h2 := lex_comma (hexWord r.last).1 (hexWord r.last).2
  have h3 := lex_word_top (printU_word r.check) (printU_ne r.check)
  have h4 : C.lexRun (.word (printU r.check)) (str "},\n") =
      some (.top, [.word (printU r.check), .punct 0x7D, .punct 0x2C]) :=
    lex_word_end (c := 0x7D) (r := str ",\n") (by decide) (by decide)
  have := lex_app h0 (lex_app h1 (lex_app h2 (lex_app h3 h4)))
  have e : printQc r = str "{" ++ (str "0x" ++ printX r.first ++ str "," ++
      (str "0x" ++ printX r.last ++ str "," ++ (printU r.check ++ str "},\n"))) := by
    have a : str "{0x" = str "{" ++ str "0x" := by decide
    have b : str ",0x" = str "," ++ str "0x" := by decide
    simp only [printQc, a, b, List.append_assoc]
  rw [e, this]
  simp [qcToks]

theorem lex_qcs (l : List QcRow) :
    C.lexRun .top (l.flatMap printQc) = some (.top, l.flatMap qcToks) := by
  induction l with
  | nil => rfl
  | cons r l ih => exact lex_app (lex_qc r) ih

theorem par_qcs (l : List QcRow) (d : List (List Nat)) (n : Option (List Nat))
    (es : List (List (List Nat))) :
    C.parRun (.elems d n es) (l.flatMap qcToks) =
      some (.elems d n (es ++ l.map fun r =>
        [str "0x" ++ printX r.first, str "0x" ++ printX r.last, printU r.check]), []) := by
  induction l generalizing es with
  | nil => simp [C.parRun]
  | cons r l ih =>
    have h : C.parRun (.elems d n es) (qcToks r) =
        some (.elems d n (es ++ [[str "0x" ++ printX r.first, str "0x" ++ printX r.last,
          printU r.check]]), []) := by
      simp [qcToks, C.parRun, C.parStep]
    have := par_app h (ih _)
    simpa using this

/-- The objects that tr46map_data.c defines. -/
def tr46Objs (l : List MapGen) (comb data : List Nat) (qc : List QcRow) : List C.Obj :=
  let bytes := fun (name : String) (n : Nat) (ws : List (List Nat)) =>
    (⟨C.words ["static", "const", "uint8_t", name], some (some (printU n)), ws.map fun w => [w]⟩ : C.Obj)
  let map := fun (name : String) (min max : Nat) =>
    bytes name (tr46_size min max l) ((print_tr46_map min max l).map fun b => str "0x" ++ printX b)
  [bytes "idna_flags" comb.length (comb.map fun b => str "0x" ++ printX b),
   map "idna_map_8" 0x0 0xFF, map "idna_map_16" 0x100 0xFFFF, map "idna_map_24" 0x10000 0xFFFFFF,
   bytes "mapdata" data.length (data.map fun b => str "0x" ++ print02X b),
   ⟨C.words ["static", "const", "NFCQCMap", "nfcqc_map"], some (some (printU qc.length)),
     qc.map fun r => [str "0x" ++ printX r.first, str "0x" ++ printX r.last, printU r.check]⟩]

theorem lex_printMap {name : String} (min max : Nat) (l : List MapGen)
    (hn : C.lexRun .top (str "static const uint8_t " ++ str name ++ str "[") =
      some (.top, [.word (str "static"), .word (str "const"), .word (str "uint8_t"),
        .word (str name), .punct 0x5B])) :
    C.lexRun .top (printMap name min max l) =
      some (.top, arrayToks "uint8_t" name (printU (tr46_size min max l))
        (commaToks ((print_tr46_map min max l).map fun b => str "0x" ++ printX b))) :=
  lex_array _ hn (Or.inr rfl) (lex_tr46 min max l) (by decide)

theorem tokens_tr46 (l : List MapGen) (comb data : List Nat) (qc : List QcRow) :
    C.tokens (gentr46output l comb data qc) = some (
      arrayToks "uint8_t" "idna_flags" (printU comb.length)
        (commaToks (comb.map fun b => str "0x" ++ printX b)) ++
      arrayToks "uint8_t" "idna_map_8" (printU (tr46_size 0x0 0xFF l))
        (commaToks ((print_tr46_map 0x0 0xFF l).map fun b => str "0x" ++ printX b)) ++
      arrayToks "uint8_t" "idna_map_16" (printU (tr46_size 0x100 0xFFFF l))
        (commaToks ((print_tr46_map 0x100 0xFFFF l).map fun b => str "0x" ++ printX b)) ++
      arrayToks "uint8_t" "idna_map_24" (printU (tr46_size 0x10000 0xFFFFFF l))
        (commaToks ((print_tr46_map 0x10000 0xFFFFFF l).map fun b => str "0x" ++ printX b)) ++
      arrayToks "uint8_t" "mapdata" (printU data.length)
        (commaToks (data.map fun b => str "0x" ++ print02X b)) ++
      arrayToks "NFCQCMap" "nfcqc_map" (printU qc.length) (qc.flatMap qcToks)) := by
  have h0 : C.lexRun .top (str "/* This file is automatically generated.  DO NOT EDIT! */\n\n" ++
      str "#include <stdint.h>\n" ++ str "#include \"tr46map.h\"\n\n") = some (.top, []) := by
    decide
  have h1 := lex_array (ty := "uint8_t") (name := "idna_flags")
    (a := str "static const uint8_t idna_flags[") (z := str "};\n\n") comb.length (by decide)
    (Or.inl rfl) (lex_bytes comb) (by decide)
  have h2 := lex_printMap (name := "idna_map_8") 0x0 0xFF l (by decide)
  have h3 := lex_printMap (name := "idna_map_16") 0x100 0xFFFF l (by decide)
  have h4 := lex_printMap (name := "idna_map_24") 0x10000 0xFFFFFF l (by decide)
  have h5 := lex_array (ty := "uint8_t") (name := "mapdata")
    (a := str "static const uint8_t mapdata[") (z := str "};\n\n") data.length (by decide)
    (Or.inr rfl) (lex_mapdata data 0) (by decide)
  have h6 := lex_array (ty := "NFCQCMap") (name := "nfcqc_map")
    (a := str "static const NFCQCMap nfcqc_map[") (z := str "};\n") qc.length (by decide)
    (Or.inr rfl) (lex_qcs qc) (by decide)
  have h := lex_app (lex_app (lex_app (lex_app (lex_app (lex_app h0 h1) h2) h3) h4) h5) h6
  unfold C.tokens gentr46output
  simp only [← List.append_assoc] at h ⊢
  rw [h]
  simp only [List.nil_append]

theorem objects_tr46 (l : List MapGen) (comb data : List Nat) (qc : List QcRow) :
    C.objects (gentr46output l comb data qc) = some (tr46Objs l comb data qc) := by
  have pb : ∀ (name : String) (n : Nat) (ws : List (List Nat)),
      C.parRun (.decl []) (arrayToks "uint8_t" name (printU n) (commaToks ws)) =
        some (.decl [], [⟨C.words ["static", "const", "uint8_t", name], some (some (printU n)),
          ws.map fun w => [w]⟩]) := by
    intro name n ws
    exact par_array (by simpa using par_comma ws _ _ [])
  have pq : C.parRun (.decl []) (arrayToks "NFCQCMap" "nfcqc_map" (printU qc.length)
      (qc.flatMap qcToks)) = some (.decl [], [⟨C.words ["static", "const", "NFCQCMap", "nfcqc_map"],
        some (some (printU qc.length)), qc.map fun r =>
          [str "0x" ++ printX r.first, str "0x" ++ printX r.last, printU r.check]⟩]) :=
    par_array (by simpa using par_qcs qc _ _ [])
  unfold C.objects
  rw [tokens_tr46]
  simp only
  rw [par_app (par_app (par_app (par_app (par_app (pb _ _ _) (pb _ _ _)) (pb _ _ _)) (pb _ _ _))
    (pb _ _ _)) pq]
  rfl

/-! ### Sizes and values -/

theorem splitEntry_length (cp2 k cp1 : Nat) : (splitEntry cp2 k cp1).length = k + 1 := by
  induction k generalizing cp1 with
  | zero => rfl
  | succ k ih => simp [splitEntry, ih]

theorem tr46_entries_add (min max : Nat) (l : List MapGen) (n : Nat) :
    tr46_entries min max l n = tr46_entries min max l 0 + n := by
  induction l generalizing n with
  | nil => simp [tr46_entries]
  | cons map r ih =>
    simp only [tr46_entries]
    split
    · exact ih n
    · split
      · omega
      · rw [ih, ih (0 + _)]; omega

/-- The number between the brackets is the number of elements. -/
theorem tr46_size_eq {min max : Nat} (hm : max = 0xFF ∨ max = 0xFFFF ∨ max = 0xFFFFFF)
    (l : List MapGen) : tr46_size min max l = (print_tr46_map min max l).length := by
  have h : ∀ l, (print_tr46_map min max l).length = recSize max * tr46_entries min max l 0 := by
    intro l
    induction l with
    | nil => simp [print_tr46_map, tr46_entries]
    | cons map r ih =>
      simp only [print_tr46_map, tr46_entries]
      split
      · exact ih
      · split
        · simp
        · rw [List.length_append, ih,
            flatMap_length_const _ _ _ (fun p _ => printRecord_length max map p),
            splitEntry_length, tr46_entries_add min max r (0 + _)]
          simp only [Nat.zero_add, Nat.mul_add]
          omega
  rw [h]
  unfold tr46_size recSize
  rcases hm with rfl | rfl | rfl <;> simp [Nat.mul_comm]

theorem print_lt (min max : Nat) (l : List MapGen) : ∀ b ∈ print_tr46_map min max l, b < 256 := by
  induction l with
  | nil => intro b hb; cases hb
  | cons map r ih =>
    intro b hb
    simp only [print_tr46_map] at hb
    split at hb
    · exact ih b hb
    · split at hb
      · cases hb
      · rcases List.mem_append.mp hb with hb | hb
        · obtain ⟨p, _, hb⟩ := List.mem_flatMap.mp hb
          simp only [printRecord] at hb
          rcases List.mem_append.mp hb with hb | hb
          · (repeat' split at hb) <;> simp only [List.mem_cons, List.not_mem_nil, or_false] at hb <;>
              omega
          · simp only [List.mem_cons, List.not_mem_nil, or_false] at hb
            omega
        · exact ih b hb

/-- What a C compiler makes of the text printed. -/
theorem compiled_tr46 {l : List MapGen} {comb data : List Nat} {qc : List QcRow}
    {dt : List Nat} {tbl : List IdnaRow} (hd : C.dataC dt = some tbl)
    (hc : ∀ b ∈ comb, b < 256) (hcl : comb.length < 2 ^ 32)
    (hdb : ∀ b ∈ data, b < 256) (hdl : data.length < 2 ^ 32)
    (hs : ∀ min max, tr46_size min max l < 2 ^ 32)
    (hq : ∀ r ∈ qc, r.first < 2 ^ 32 ∧ r.last < 2 ^ 32 ∧ r.check < 128) (hql : qc.length < 2 ^ 32) :
    C.compiled dt (gentr46output l comb data qc) =
      some ⟨tbl, comb, print_tr46_map 0x0 0xFF l, print_tr46_map 0x100 0xFFFF l,
        print_tr46_map 0x10000 0xFFFFFF l, data, qc.map fun r => (r.first, r.last, r.check)⟩ := by
  have m : ∀ (min max : Nat) (d : List (List Nat)), max = 0xFF ∨ max = 0xFFFF ∨ max = 0xFFFFFF →
      C.array 0 C.u8 ⟨d, some (some (printU (tr46_size min max l))),
        ((print_tr46_map min max l).map fun b => str "0x" ++ printX b).map fun w => [w]⟩ =
        some (print_tr46_map min max l) := by
    intro min max d hm
    have hl := hs min max
    rw [tr46_size_eq hm] at hl ⊢
    have := array_full (zero := 0) (f := C.u8) (g := fun b => [str "0x" ++ printX b]) (k := id)
      (d := d) (fun b hb => u8_hex (print_lt min max l b hb)) hl
    rw [List.map_id] at this
    rw [List.map_map]
    exact this
  have f : ∀ d : List (List Nat), C.array 0 C.u8 ⟨d, some (some (printU comb.length)),
      (comb.map fun b => str "0x" ++ printX b).map fun w => [w]⟩ = some comb := by
    intro d
    have := array_full (zero := 0) (f := C.u8) (g := fun b => [str "0x" ++ printX b]) (k := id)
      (d := d) (fun b hb => u8_hex (hc b hb)) hcl
    rw [List.map_id] at this
    rw [List.map_map]
    exact this
  have g : ∀ d : List (List Nat), C.array 0 C.u8 ⟨d, some (some (printU data.length)),
      (data.map fun b => str "0x" ++ print02X b).map fun w => [w]⟩ = some data := by
    intro d
    have := array_full (zero := 0) (f := C.u8) (g := fun b => [str "0x" ++ print02X b]) (k := id)
      (d := d) (fun b hb => u8_hex2 (hdb b hb)) hdl
    rw [List.map_id] at this
    rw [List.map_map]
    exact this
  have q : ∀ d : List (List Nat), C.array (0, 0, 0) C.nfcqc ⟨d, some (some (printU qc.length)),
      qc.map fun r => [str "0x" ++ printX r.first, str "0x" ++ printX r.last, printU r.check]⟩ =
        some (qc.map fun r => (r.first, r.last, r.check)) := by
    intro d
    refine array_full (fun r hr => ?_) hql
    obtain ⟨h1, h2, h3⟩ := hq r hr
    simp only [C.nfcqc, number_printX, number_printU, u32_of_lt h1, u32_of_lt h2,
      u32_of_lt (show r.check < 2 ^ 32 by omega), if_pos h3, Nat.mod_eq_of_lt h1,
      Nat.mod_eq_of_lt h2]
  unfold C.compiled
  rw [hd, objects_tr46]
  simp only
  have o1 : C.object (C.words ["static", "const", "uint8_t", "idna_flags"])
      (tr46Objs l comb data qc) = (tr46Objs l comb data qc)[0]? := rfl
  have o2 : C.object (C.words ["static", "const", "uint8_t", "idna_map_8"])
      (tr46Objs l comb data qc) = (tr46Objs l comb data qc)[1]? := rfl
  have o3 : C.object (C.words ["static", "const", "uint8_t", "idna_map_16"])
      (tr46Objs l comb data qc) = (tr46Objs l comb data qc)[2]? := rfl
  have o4 : C.object (C.words ["static", "const", "uint8_t", "idna_map_24"])
      (tr46Objs l comb data qc) = (tr46Objs l comb data qc)[3]? := rfl
  have o5 : C.object (C.words ["static", "const", "uint8_t", "mapdata"])
      (tr46Objs l comb data qc) = (tr46Objs l comb data qc)[4]? := rfl
  have o6 : C.object (C.words ["static", "const", "NFCQCMap", "nfcqc_map"])
      (tr46Objs l comb data qc) = (tr46Objs l comb data qc)[5]? := rfl
  simp only [C.byteArray, o1, o2, o3, o4, o5, o6]
  simp only [tr46Objs, List.getElem?_cons_zero, List.getElem?_cons_succ, f, g, q,
    m _ _ _ (Or.inl rfl), m _ _ _ (Or.inr (Or.inl rfl)), m _ _ _ (Or.inr (Or.inr rfl)),
    Option.bind_some]

end Idn2
