import Verif.Spec.Examples
import Verif.Props.Answer
import Verif.Proof.GenText

/-
Property C71: the example programs.
-/

namespace Idn2
open Spec

theorem print02x_eq (c : Nat) : print02x c = hexByte c := by
  have key : ∀ d < 16, lowDigit d = (str "0123456789abcdef").getD d 0 := by decide
  have h : c &&& 0xFF = c % 256 := Nat.and_two_pow_sub_one_eq_mod c 8
  unfold print02x hexByte
  rw [h, key _ (by omega), key _ (by omega), show c % 256 / 16 = c / 16 % 16 by omega,
    show c % 256 % 16 = c % 16 by omega]

theorem dumpLoop_eq (buf : List Nat) (i : Nat) : dumpLoop buf i = (buf.drop i).flatMap hexByte := by
  induction h : buf.length - i generalizing i with
  | zero =>
    rw [dumpLoop, dif_neg (by omega), List.drop_eq_nil_of_le (by omega)]
    rfl
  | succ k ih =>
    rw [dumpLoop, dif_pos (by omega), ih (i + 1) (by omega),
      List.drop_eq_getElem_cons (show i < buf.length by omega), print02x_eq]
    rfl

/-- What is left of the line when `fgets` has found its end, the end of the input or that of the
array: the name that is processed. -/
def entered (bufsiz : Nat) (stdin : List Nat) : List Nat :=
  (lineStr (fgets (bufsiz - 1) stdin).1).dropLast

variable {F : Nat → Bool} {L : List Nat}

/-- How the run of a program with the name `s` ends. -/
def ExEnds (D : Data) (U : Uni) (F : Nat → Bool) (x : Example) (s L : List Nat) (t : Screen)
    (L' : List Nat) : Prop :=
  L' = L ∧ (((∃ k, F k = true) ∧ t = screen x s (.error .malloc)) ∨
    ∃ r, Answer D U (asks s x) r ∧ t = screen x s r)

theorem asks_valid {s : List Nat} (h0 : 0 ∉ s) (x : Example) : (asks s x).Valid := by
  cases x with
  | register =>
    refine ⟨Or.inl (Option.some_ne_none s), ?_⟩
    rintro s' (h | h) <;> cases h
    exact h0
  | _ => exact h0

theorem tri_showEnd {E : Env} {D : Data} (W : World E D) (U : E.U.Locale) {s : List Nat}
    (h0 : 0 ∉ s) (x : Example) {call : HeapM (Option Rc × Option Cell)}
    (hc : call = (asks s x).run E (some (.old 0))) {fails : Rc → Screen} {prints : List Nat → Screen}
    (hf : ∀ e, fails e = screen x s (.error e)) (hp : ∀ n, prints n = screen x s (.ok n)) :
    Tri F (call >>= fun r => showEnd r fails prints) L (ExEnds D E.U F x s L) := by
  subst hc
  have hv := asks_valid h0 x
  refine Tri.bind ((asks s x).tri W U hv (some (.old 0)) F L) ?_
  intro r L' _ hr
  rcases ends_some hr with ⟨hk, rfl, rfl⟩ | ⟨e, he, rfl, rfl⟩ | ⟨n, p, he, rfl, rfl⟩
  · exact Tri.pure ⟨rfl, Or.inl ⟨hk, hf _⟩⟩
  · exact Tri.pure ⟨rfl, Or.inr ⟨.error e, ((asks s x).closed_is W U hv _).mp he, hf e⟩⟩
  · have ha := ((asks s x).closed_is W U hv (.ok n)).mp he
    unfold showEnd
    simp only [cstr_snoc (C70_string W U hv ha)]
    refine Tri.bind Tri.touchHead ?_
    rintro _ _ _ rfl
    refine Tri.bind Tri.freeHead ?_
    rintro _ _ _ rfl
    exact Tri.pure ⟨rfl, Or.inr ⟨.ok n, ha, hp n⟩⟩

theorem take_length_pred (l : List Nat) : l.take (l.length - 1) = l.dropLast := by
  rw [List.dropLast_eq_take]

theorem tri_example {E : Env} {D : Data} (W : World E D) (U : E.U.Locale) {bufsiz : Nat}
    {stdin : List Nat} (hne : stdin ≠ []) (hl : lineStr (fgets (bufsiz - 1) stdin).1 ≠ [])
    (perr : List Nat) (x : Example) :
    Tri F (x.run E bufsiz perr stdin : HeapM _) L
      (ExEnds D E.U F x (entered bufsiz stdin) L) := by
  have h0 : 0 ∉ entered bufsiz stdin := fun h =>
    mem_takeWhile_ne _ (List.dropLast_sublist _ |>.mem h)
  have hd : (dropEnd (fgets (bufsiz - 1) stdin).1 : HeapM (List Nat)) =
      pure (entered bufsiz stdin) := by
    unfold dropEnd entered
    rw [if_neg (by simpa using hl), take_length_pred]
  have hf : fgetsIn bufsiz stdin = some (fgets (bufsiz - 1) stdin).1 := by
    unfold fgetsIn
    rw [if_neg hne]
  have hdump : dumpLine (entered bufsiz stdin) = str ("Read string (length " ++
      toString (entered bufsiz stdin).length ++ "): ") ++ (entered bufsiz stdin).flatMap hexByte ++
      [10] := by
    unfold dumpLine
    rw [dumpLoop_eq]
    rfl
  cases x with
  | decode =>
    simp only [Example.run, example_decode, hf, hd]
    refine Tri.bind (Tri.pure (Q := fun a L' => a = entered bufsiz stdin ∧ L' = L) ⟨rfl, rfl⟩) ?_
    rintro _ _ _ ⟨rfl, rfl⟩
    exact tri_showEnd W U h0 .decode rfl (fun e => by simp [screen, openText, errorText, errorLine])
      (fun n => by simp [screen, openText, resultText])
  | lookup =>
    simp only [Example.run, example_lookup, hf, hd]
    refine Tri.bind (Tri.pure (Q := fun a L' => a = entered bufsiz stdin ∧ L' = L) ⟨rfl, rfl⟩) ?_
    rintro _ _ _ ⟨rfl, rfl⟩
    exact tri_showEnd W U h0 .lookup rfl (fun e => by simp [screen, openText, errorText, errorLine])
      (fun n => by simp [screen, openText, resultText])
  | register =>
    simp only [Example.run, example_register, hf, hd]
    refine Tri.bind (Tri.pure (Q := fun a L' => a = entered bufsiz stdin ∧ L' = L) ⟨rfl, rfl⟩) ?_
    rintro _ _ _ ⟨rfl, rfl⟩
    exact tri_showEnd W U h0 .register rfl (fun e => by simp [screen, openText, errorText, errorLine])
      (fun n => by simp [screen, openText, resultText])
  | toascii =>
    simp only [Example.run, example_toascii, hf, hd]
    refine Tri.bind (Tri.pure (Q := fun a L' => a = entered bufsiz stdin ∧ L' = L) ⟨rfl, rfl⟩) ?_
    rintro _ _ _ ⟨rfl, rfl⟩
    exact tri_showEnd W U h0 .toascii rfl (fun e => by simp [screen, openText, errorText, hdump])
      (fun n => by simp [screen, openText, resultText, hdump, aceLine])
  | tounicode =>
    simp only [Example.run, example_tounicode, hf, hd]
    refine Tri.bind (Tri.pure (Q := fun a L' => a = entered bufsiz stdin ∧ L' = L) ⟨rfl, rfl⟩) ?_
    rintro _ _ _ ⟨rfl, rfl⟩
    exact tri_showEnd W U h0 .tounicode rfl (fun e => by simp [screen, openText, errorText, hdump])
      (fun n => by simp [screen, openText, resultText, hdump, aceLine])

/-- Whatever is in the array after `fgets`, a program processes the string in it without its last
byte, if there is one. -/
theorem showsAnswer_of {E : Env} {D : Data} (W : World E D) (U : E.U.Locale) {bufsiz : Nat}
    {stdin l : List Nat} {b : Nat} (hne : stdin ≠ [])
    (hl : lineStr (fgets (bufsiz - 1) stdin).1 = l ++ [b])
    (perr : List Nat) (x : Example) {h : Heap} (hok : h.Ok) :
    ShowsAnswer D E.U x l (x.run E bufsiz perr stdin) h := by
  have he : entered bufsiz stdin = l := by
    unfold entered
    rw [hl]
    simp
  obtain ⟨t, h', F, e1, _, ⟨e3, e5⟩, e4⟩ := tri_window
    (Q := fun F => ExEnds D E.U F x (entered bufsiz stdin) h.live)
    (fun F => tri_example W U hne (by rw [hl]; simp) perr x) hok rfl
  rw [he] at e5
  refine ⟨t, h', e1, e3, ?_⟩
  rcases e5 with ⟨hk, rfl⟩ | h5
  · exact Or.inl ⟨e4 hk, rfl⟩
  · exact Or.inr h5

theorem lineStr_all {l : List Nat} (h : 0 ∉ l) : lineStr l = l := takeWhile_all h

/-- C71.  If a line that ends with a newline, contains no NUL and fits the array is entered, an
example program shows the answer of the library to that line. -/
theorem C71_line_partial {E : Env} {D : Data} (W : World E D) (U : E.U.Locale) {bufsiz : Nat}
    {line rest : List Nat} (hn : 0x0A ∉ line) (h0 : 0 ∉ line) (hb : line.length + 2 ≤ bufsiz)
    (perr : List Nat) (x : Example) {h : Heap} (hok : h.Ok) :
    ShowsAnswer D E.U x line (x.run E bufsiz perr (line ++ 0x0A :: rest)) h := by
  refine showsAnswer_of W U (b := 0x0A) (by simp) ?_ perr x hok
  rw [fgets_line _ rest hn (by omega)]
  exact lineStr_all (by simpa using h0)

/-- A last line without newline loses its last byte: "ab" is taken for "a". -/
theorem C71_no_newline {E : Env} {D : Data} (W : World E D) (U : E.U.Locale) {bufsiz : Nat}
    {line : List Nat} {b : Nat} (hn : 0x0A ∉ line ++ [b]) (h0 : 0 ∉ line ++ [b])
    (hb : line.length + 2 ≤ bufsiz) (perr : List Nat) (x : Example) {h : Heap} (hok : h.Ok) :
    ShowsAnswer D E.U x line (x.run E bufsiz perr (line ++ [b])) h := by
  refine showsAnswer_of W U (b := b) (by simp) ?_ perr x hok
  rw [fgets_last _ hn (by simp; omega)]
  exact lineStr_all h0

theorem fgets_full {l : List Nat} (r : List Nat) (h : 10 ∉ l) :
    fgets l.length (l ++ r) = (l, r) := by
  induction l with
  | nil => cases r <;> rfl
  | cons b l ih =>
    have hb : b ≠ 10 := by rintro rfl; simp at h
    simp only [List.length_cons, List.cons_append, fgets, if_neg hb]
    rw [ih (by simp at h; exact h.2)]

/-- Of a line that does not fit the array only the first `bufsiz - 2` bytes are processed. -/
theorem C71_long_line {E : Env} {D : Data} (W : World E D) (U : E.U.Locale) {bufsiz : Nat}
    {line rest : List Nat} {b : Nat} (hn : 0x0A ∉ line ++ [b]) (h0 : 0 ∉ line ++ [b])
    (hb : bufsiz = line.length + 2) (perr : List Nat) (x : Example) {h : Heap} (hok : h.Ok) :
    ShowsAnswer D E.U x line (x.run E bufsiz perr (line ++ [b] ++ rest)) h := by
  refine showsAnswer_of W U (b := b) (by simp) ?_ perr x hok
  have := fgets_full rest hn
  rw [show (line ++ [b]).length = bufsiz - 1 by simp [hb]] at this
  rw [this]
  exact lineStr_all h0

/-- If the input begins with a NUL, all programs write in front of their array. -/
theorem C71_nul_undefined (E : Env) (bufsiz : Nat) (perr rest : List Nat) (x : Example) (h : Heap) :
    (x.run E bufsiz perr (0 :: rest) : HeapM _) h = .ub := by
  have hf : fgetsIn bufsiz (0 :: rest) = some (fgets (bufsiz - 1) (0 :: rest)).1 := rfl
  have hl : lineStr (fgets (bufsiz - 1) (0 :: rest)).1 = [] := by
    cases bufsiz - 1 <;> simp [fgets, lineStr]
  have hd : (dropEnd (fgets (bufsiz - 1) (0 :: rest)).1 : HeapM (List Nat)) = cub := by
    unfold dropEnd
    rw [if_pos (by rw [hl]; rfl)]
  cases x <;>
    simp only [Example.run, example_decode, example_lookup, example_register, example_toascii,
      example_tounicode, hf, hd] <;> rfl

/-- Without any input the first three programs end with an error; the other two read an array that
has not been initialised. -/
theorem C71_no_input (E : Env) (bufsiz : Nat) (perr : List Nat) (h : Heap) :
    (∀ x : Example, x = .decode ∨ x = .lookup ∨ x = .register →
      (x.run E bufsiz perr [] : HeapM _) h = .val (⟨openText [] x, perr, 1⟩, h)) ∧
    ∀ x : Example, x = .toascii ∨ x = .tounicode →
      (x.run E bufsiz perr [] : HeapM _) h = .ub := by
  constructor
  · rintro x (rfl | rfl | rfl) <;> rfl
  · rintro x (rfl | rfl) <;> rfl

/-- The screen of a run. -/
def shownBy (x : Example) (stdin : List Nat) (k : Nat) : Option (Screen × List Nat) :=
  match (x.run utf8Env 256 [] stdin : HeapM _) (failing k) with
  | .val (t, h) => some (t, h.live)
  | .ub => none

-- "fä" is looked up; an allocation fails; "fä" without newline is malformed for it loses a byte
example :
    shownBy .toascii [0x66, 0xC3, 0xA4, 0x0A] 100 = some (⟨str "Read string (length 3): 66 c3 a4 \n" ++
      str "ACE label (length 9): 'xn--f-0fa'\n", [], 0⟩, [0]) ∧
    shownBy .lookup [0x66, 0xC3, 0xA4, 0x0A] 1 = some (⟨str "Enter (possibly non-ASCII) domain name to lookup: ",
      str "error: out of memory (IDN2_MALLOC, -100)\n", 1⟩, [0]) ∧
    shownBy .toascii [0x66, 0xC3, 0xA4] 100 = some (⟨str "Read string (length 2): 66 c3 \n" ++
      str "ToASCII() failed (-200): string encoding error\n", [], 1⟩, [0]) := by decide +kernel

end Idn2
