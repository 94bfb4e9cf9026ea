import Verif.Model.Fuzz
import Verif.Spec.FuzzCalls

/-
C102: the calls of the library that the fuzz targets make.
-/

namespace Idn2

open Spec LibCall

/-- Programs that keep a list of the calls of the library made so far.  Allocations succeed. -/
def RecM (α : Type) : Type := List LibCall → Out (α × List LibCall)

instance : CMem RecM where
  pure a := fun l => .val (a, l)
  bind x f := fun l => match x l with
    | .val (a, l') => f a l'
    | .ub => .ub
  malloc := fun l => .val (some 0, l)
  free _ := fun l => .val ((), l)
  touch _ := fun l => .val ((), l)
  ub := fun _ => .ub

/-- A library that writes down each call, and answers as it is told. -/
structure Oracle where
  rc : List LibCall → LibCall → Option Rc
  version : List LibCall → LibCall → Option (List Nat)

/-- A call of a function that returns a new string in `out`. -/
def recStr (O : Oracle) (c : LibCall) (out : Option Cell) : RecM (Option Rc × Option Cell) :=
  fun l => .val (match O.rc l c with
    | none => (none, out.map fun _ => .buf 0 [])
    | some e => (some e, out), l ++ [c])

/-- The library that records the calls. -/
def recLib (O : Oracle) : FuzzLib RecM where
  register_ul u a out f := recStr O (.register_ul u a out.isSome f) out
  to_ascii_8z i out f := recStr O (.to_ascii_8z i out.isSome f) out
  to_ascii_lz i out f := recStr O (.to_ascii_lz i out.isSome f) out
  to_ascii_4i i out f := fun l =>
    let c := .to_ascii_4i i (out.map List.length) f
    .val ((O.rc l c, out), l ++ [c])
  to_ascii_4i2 i out f := recStr O (.to_ascii_4i2 i out.isSome f) out
  to_ascii_4z i out f := recStr O (.to_ascii_4z i out.isSome f) out
  to_unicode_lzlz i out f := recStr O (.to_unicode_lzlz i out.isSome f) out
  to_unicode_4z4z i out f := recStr O (.to_unicode_4z4z i out.isSome f) out
  to_unicode_8z4z i out f := recStr O (.to_unicode_8z4z i out.isSome f) out
  to_unicode_44i i out len f := fun l =>
    let c := .to_unicode_44i i (out.map List.length) len f
    .val ((O.rc l c, out, len), l ++ [c])
  check_version r := fun l => .val (O.version l (.check_version r), l ++ [.check_version r])

/-! ### The steps of a recorded program -/

/-- The program returns `a` and makes the calls `cs`. -/
def Makes {α : Type} (x : RecM α) (cs : List LibCall) (a : α) : Prop :=
  ∀ l, x l = .val (a, l ++ cs)

theorem Makes.pure {α : Type} (a : α) : Makes (pure a : RecM α) [] a := fun l => by
  simp [Pure.pure]

theorem Makes.bind {α β : Type} {x : RecM α} {f : α → RecM β} {cs ds : List LibCall} {a : α} {b : β}
    (h : Makes x cs a) (g : Makes (f a) ds b) : Makes (x >>= f) (cs ++ ds) b := fun l => by
  show (match x l with | .val (a, l') => f a l' | .ub => .ub) = _
  rw [h l]
  simp only
  rw [g, List.append_assoc]

theorem Makes.silent {α β : Type} {x : RecM α} {f : α → RecM β} {ds : List LibCall} {a : α} {b : β}
    (h : Makes x [] a) (g : Makes (f a) ds b) : Makes (x >>= f) ds b := Makes.bind h g

theorem makes_malloc : Makes (malloc : RecM _) [] (some 0) := fun l => by simp [malloc]
theorem makes_free (p : Nat) : Makes (cfree p : RecM Unit) [] () := fun l => by
  simp [cfree, CMem.free]
theorem makes_touch (p : Nat) : Makes (touch p : RecM Unit) [] () := fun l => by simp [touch]

theorem makes_callFree (O : Oracle) (c : LibCall) (n : Nat) :
    Makes (callFree (recStr O c (some (.old n)))) [c] () := fun l => by
  show (match recStr O c (some (.old n)) l with | .val (a, l') => (freeResult a : RecM Unit) l' | .ub => Out.ub) = _
  unfold recStr
  cases h : O.rc l c <;> simp [freeResult, idn2_free, freeOpt, CMem.free, Pure.pure]

theorem makes_drop (O : Oracle) (c : LibCall) (out : Option Cell) :
    Makes (drop (recStr O c out)) [c] () := fun l => by
  show (match recStr O c out l with | .val (a, l') => (Pure.pure () : RecM Unit) l' | .ub => .ub) = _
  unfold recStr
  cases h : O.rc l c <;> simp [Pure.pure]

theorem makes_drop_4i (O : Oracle) (i : Option (List Nat)) (out : Option (List Nat)) (f : Nat) :
    Makes (drop ((recLib O).to_ascii_4i i out f)) [.to_ascii_4i i (out.map List.length) f] () :=
  fun _ => rfl

theorem makes_drop_44i (O : Oracle) (i : Option (List Nat)) (out : Option (List Nat))
    (len : Option Nat) (f : Nat) :
    Makes (drop ((recLib O).to_unicode_44i i out len f))
      [.to_unicode_44i i (out.map List.length) len f] () :=
  fun _ => rfl

theorem makes_drop_version (O : Oracle) (r : Option (List Nat)) :
    Makes (drop ((recLib O).check_version r)) [.check_version r] () :=
  fun _ => rfl

theorem makes_eachFlag {f : Nat → RecM Unit} {g : Nat → List LibCall}
    (h : ∀ x, Makes (f x) (g x) ()) : ∀ l, Makes (eachFlag f l) (l.flatMap g) ()
  | [] => Makes.pure ()
  | x :: r => by
    rw [List.flatMap_cons]
    exact Makes.bind (h x) (makes_eachFlag h r)

theorem makes_ifEmpty {data : List Nat} {x : RecM Unit} {cs : List LibCall} (h : Makes x cs ()) :
    Makes (ifEmpty data x) (if data.isEmpty then cs else []) () := by
  unfold ifEmpty
  cases data with
  | nil => exact h
  | cons a r => exact Makes.pure ()

theorem makes_version (O : Oracle) (data : List Nat) :
    Makes (fuzzVersion (recLib O) data) [.check_version (some (lineStr data))] () := fun l => by
  show (if data.length ≠ 0 ∧ O.version l (.check_version (some (lineStr data))) = none then
    (do let p ← malloc; freeOpt p) else Pure.pure () : RecM Unit) _ = _
  split <;> rfl

theorem flatMap_one {α β : Type} (f : α → β) (l : List α) : l.flatMap (fun x => [f x]) = l.map f := by
  induction l with
  | nil => rfl
  | cons a r ih => simp [ih]

/-! ### The arguments -/

theorem isCString_unique {a s : List Nat} (h : IsCString a s) : s = lineStr a := by
  obtain ⟨h0, t, ht⟩ := h
  unfold lineStr
  induction s generalizing a with
  | nil =>
    cases a with
    | nil => rfl
    | cons x r => simp at ht; simp [ht.1]
  | cons x s ih =>
    simp only [List.mem_cons, not_or] at h0
    cases a with
    | nil => simp at ht
    | cons y r =>
      simp only [List.cons_append, List.cons.injEq] at ht
      obtain ⟨rfl, ht⟩ := ht
      rw [List.takeWhile_cons]
      have : (y != 0) = true := by simpa using Ne.symm h0.1
      rw [this, if_pos rfl, ← ih h0.2 ht]

theorem words_areWords : ∀ data : List Nat, data.length % 4 = 0 → AreWords data (words data)
  | [], _ => ⟨rfl, fun i hi => absurd hi (by simp [words])⟩
  | [_], h => by simp at h
  | [_, _], h => by simp at h
  | [_, _, _], h => by simp at h
  | a :: b :: c :: d :: r, h => by
    obtain ⟨h1, h2⟩ := words_areWords r (by simp only [List.length_cons] at h; omega)
    refine ⟨by simp only [words, List.length_cons]; omega, ?_⟩
    intro i hi
    cases i with
    | zero => simp [words]; omega
    | succ i =>
      simp only [words, List.length_cons] at hi
      have := h2 i (by omega)
      simp only [words, List.getElem?_cons_succ, this]
      simp [Nat.mul_add, List.getD, Nat.add_right_comm _ 4]

theorem areWords_unique {data w : List Nat} (h : AreWords data w) : w = words data := by
  have hd : data.length % 4 = 0 := by have := h.1; omega
  obtain ⟨h1, h2⟩ := h
  obtain ⟨g1, g2⟩ := words_areWords data hd
  apply List.ext_getElem?
  intro i
  by_cases hi : i < w.length
  · rw [h2 i hi, g2 i (by omega)]
  · rw [List.getElem?_eq_none (by omega), List.getElem?_eq_none (by omega)]

/-! ### C102 -/

/-- C102 for the register target: for data of at most 1024 bytes it registers the data as a U-label,
and as an A-label the first bytes, as many as there is data, of "xn--" with the data behind it.  It
does so whatever the library answers.  For more data it makes no call. -/
theorem C102_register (O : Oracle) {data u a : List Nat} (hu : IsCString data u)
    (ha : IsCString (([0x78, 0x6E, 0x2D, 0x2D] ++ data).take data.length) a) :
    Makes (fuzzRegister (recLib O) data)
      (if data.length ≤ 1024 then registerCalls data.isEmpty u a else []) .done := by
  obtain rfl := isCString_unique hu
  have ea : a = fuzzAlabel data := isCString_unique ha
  subst ea
  unfold fuzzRegister
  by_cases hl : data.length > 1024
  · rw [if_pos hl, if_neg (show ¬ data.length ≤ 1024 by omega)]; exact Makes.pure _
  rw [if_neg hl, if_pos (show data.length ≤ 1024 by omega)]
  unfold registerCalls
  refine Makes.silent makes_malloc (Makes.silent (makes_touch _) ?_)
  rw [List.append_assoc]
  refine Makes.bind (makes_ifEmpty ?_) ?_
  · unfold fuzzRegisterNull
    exact Makes.bind (makes_callFree O _ 0) (Makes.silent (makes_touch _) (makes_drop O _ _))
  refine Makes.silent (makes_touch _) (Makes.bind (cs := [_]) (makes_callFree O _ 0) ?_)
  refine Makes.silent (makes_free _) ?_
  unfold fuzzRegisterAlabel
  refine Makes.silent makes_malloc (Makes.silent (makes_touch _) ?_)
  refine Makes.bind (cs := [_]) (makes_callFree O _ 0) ?_
  rw [← List.append_nil (if data.isEmpty then _ else _)]
  exact Makes.bind (makes_ifEmpty (Makes.silent (makes_touch _) (makes_drop O _ _)))
    (Makes.silent (makes_free _) (Makes.pure _))

/-- C102 for the to-ASCII target: for data of at most 1024 bytes it converts the data as a string
with each of the flags, and if the length is a multiple of four also as 32-bit numbers. -/
theorem C102_to_ascii (O : Oracle) {data s : List Nat} (hs : IsCString data s)
    (wz : Option (List Nat × List Nat))
    (hw : ∀ w z, wz = some (w, z) → AreWords data w ∧ IsCString w z)
    (hn : wz = none → data.length % 4 ≠ 0) :
    Makes (fuzzToAscii (recLib O) data)
      (if data.length ≤ 1024 then asciiCalls data.isEmpty s wz else []) .done := by
  obtain rfl := isCString_unique hs
  unfold fuzzToAscii
  by_cases hl : data.length > 1024
  · rw [if_pos hl, if_neg (show ¬ data.length ≤ 1024 by omega)]; exact Makes.pure _
  rw [if_neg hl, if_pos (show data.length ≤ 1024 by omega)]
  unfold asciiCalls
  refine Makes.silent makes_malloc (Makes.silent (makes_touch _) ?_)
  rw [List.append_assoc]
  refine Makes.bind (makes_ifEmpty ?_) ?_
  · unfold fuzzToAsciiNull
    refine Makes.bind (cs := [_]) (makes_callFree O _ 0) (Makes.bind (cs := [_]) (makes_drop O _ _)
      (Makes.silent (makes_touch _) (Makes.bind (cs := [_]) (makes_drop O _ _) ?_)))
    refine Makes.bind (cs := [_]) (makes_callFree O _ 0) (Makes.bind (cs := [_]) (makes_drop O _ _)
      (Makes.silent (makes_touch _) (Makes.bind (cs := [_]) (makes_drop O _ _) ?_)))
    refine Makes.bind (cs := [_]) (makes_drop_4i O _ _ _) (Makes.bind (cs := [_])
      (makes_drop_4i O _ _ _) (Makes.bind (cs := [_]) (makes_drop_4i O _ _ _) ?_))
    refine Makes.bind (cs := [_]) (makes_callFree O _ 0) (Makes.bind (cs := [_]) (makes_drop O _ _)
      (Makes.bind (cs := [_]) (makes_drop O _ _) ?_))
    exact Makes.bind (cs := [_]) (makes_callFree O _ 0) (Makes.bind (cs := [_]) (makes_drop O _ _)
      (makes_drop O _ _))
  refine Makes.bind (makes_eachFlag (l := testedFlags) (fun x => ?_)) ?_
  · unfold fuzzRound
    exact Makes.silent (makes_touch _) (Makes.bind (cs := [_]) (makes_callFree O _ 0)
      (Makes.silent (makes_touch _) (makes_callFree O _ 0)))
  cases wz with
  | none =>
    rw [if_neg (hn rfl)]
    exact Makes.silent (Makes.pure _) (Makes.silent (makes_free _) (Makes.pure _))
  | some wz =>
    obtain ⟨w, z⟩ := wz
    obtain ⟨h1, h2⟩ := hw w z rfl
    rw [if_pos (by have := h1.1; omega)]
    obtain rfl := areWords_unique h1
    obtain rfl := isCString_unique h2
    simp only
    rw [← List.append_nil (_ ++ testedFlags.map (to_ascii_4z _ _))]
    refine Makes.bind (a := FuzzEnd.done) ?_ (Makes.silent (makes_free _) (Makes.pure _))
    unfold fuzzToAsciiWords
    refine Makes.silent makes_malloc (Makes.silent makes_malloc ?_)
    simp only
    rw [← List.append_nil (_ ++ testedFlags.map (to_ascii_4z _ _))]
    refine Makes.bind (a := ()) ?_
      (Makes.silent (makes_free _) (Makes.silent (makes_free _) (Makes.pure _)))
    unfold fuzzToAscii32
    rw [List.append_assoc]
    refine Makes.silent (makes_touch _) (Makes.bind (a := ()) ?_
      (Makes.bind (a := ()) ?_ (Makes.silent (makes_touch _) ?_)))
    · have := makes_drop_4i O (some (words data)) (some (List.replicate 64 0)) 0
      simpa using this
    · rw [← flatMap_one]
      exact makes_eachFlag (l := testedFlags) fun x => makes_callFree O _ 0
    · rw [← flatMap_one]
      exact makes_eachFlag (l := testedFlags) fun x =>
        Makes.silent (makes_touch _) (makes_callFree O _ 0)

/-- C102 for the to-Unicode target: for data of at most 1024 bytes it compares the version with the
data and converts the data as a string, and if the length is a multiple of four also as an array of
32-bit numbers, into an array of the same length. -/
theorem C102_to_unicode (O : Oracle) {data s : List Nat} (hs : IsCString data s)
    (w : Option (List Nat)) (hw : ∀ v, w = some v → AreWords data v)
    (hn : w = none → data.length % 4 ≠ 0) :
    Makes (fuzzToUnicode (recLib O) data)
      (if data.length ≤ 1024 then unicodeCalls data.isEmpty s w else []) .done := by
  obtain rfl := isCString_unique hs
  unfold fuzzToUnicode
  by_cases hl : data.length > 1024
  · rw [if_pos hl, if_neg (show ¬ data.length ≤ 1024 by omega)]; exact Makes.pure _
  rw [if_neg hl, if_pos (show data.length ≤ 1024 by omega)]
  unfold unicodeCalls
  refine Makes.silent makes_malloc (Makes.silent (makes_touch _) ?_)
  rw [List.append_assoc]
  refine Makes.bind (makes_ifEmpty ?_) ?_
  · unfold fuzzToUnicodeNull
    refine Makes.bind (cs := [_]) (makes_drop_version O _) ?_
    refine Makes.bind (cs := [_]) (makes_callFree O _ 0) (Makes.bind (cs := [_]) (makes_drop O _ _)
      (Makes.silent (makes_touch _) (Makes.bind (cs := [_]) (makes_drop O _ _) ?_)))
    refine Makes.silent makes_malloc (Makes.silent (makes_touch _) ?_)
    refine Makes.bind (cs := [_]) (makes_callFree O _ 0) (Makes.bind (cs := [_]) (makes_drop O _ _)
      (Makes.silent (makes_touch _) (Makes.bind (cs := [_]) (makes_drop O _ _)
        (Makes.silent (makes_free _) ?_))))
    refine Makes.bind (cs := [_]) (makes_callFree O _ 0) (Makes.bind (cs := [_]) (makes_drop O _ _)
      (Makes.silent (makes_touch _) (Makes.bind (cs := [_]) (makes_drop O _ _) ?_)))
    refine Makes.silent makes_malloc ?_
    exact Makes.bind (cs := [_]) (makes_drop_44i O _ _ _ _) (Makes.bind (cs := [_])
      (makes_drop_44i O _ _ _ _) (makes_free _))
  refine Makes.silent (makes_touch _) (Makes.bind (cs := [_]) (makes_version O data)
    (Makes.silent (makes_touch _) (Makes.bind (cs := [_]) (makes_callFree O _ 0) ?_)))
  cases w with
  | none =>
    rw [if_neg (hn rfl)]
    exact Makes.silent (Makes.pure _) (Makes.silent (makes_free _) (Makes.pure _))
  | some w =>
    have h1 := hw w rfl
    have e : data.length / 4 = w.length := by have := h1.1; omega
    rw [if_pos (by have := h1.1; omega)]
    obtain rfl := areWords_unique h1
    refine Makes.bind (cs := [_]) (a := FuzzEnd.done) ?_
      (Makes.silent (makes_free _) (Makes.pure _))
    unfold fuzzToUnicodeWords
    refine Makes.silent makes_malloc (Makes.silent (makes_touch _) ?_)
    rw [e]
    refine Makes.bind (cs := [_]) (ds := []) (a := ()) ?_ (Makes.silent (makes_free _) (Makes.pure _))
    have := makes_drop_44i O (some (words data)) (some (List.replicate (words data).length 0))
      (some (words data).length) 0
    simpa using this

/-! ### Examples -/

/-- The answers of a library that refuses everything of an odd number of calls before it. -/
def someAnswers : Oracle where
  rc l _ := if l.length % 2 = 1 then some .nfc else none
  version _ _ := none

/-- The calls that a program makes. -/
def callsOf {α : Type} (x : RecM α) : Option (List LibCall) :=
  match x [] with
  | .val (_, l) => some l
  | .ub => none

example : callsOf (fuzzRegister (recLib someAnswers) [0x61, 0x62, 0x63, 0x64, 0x65, 0, 0x66]) =
    some [register_ul (some [0x61, 0x62, 0x63, 0x64, 0x65]) none true 0,
      register_ul none (some [0x78, 0x6E, 0x2D, 0x2D, 0x61, 0x62, 0x63]) true 0] := by decide

example : IsCString [0x61, 0, 0x66] [0x61] ∧ ¬ IsCString [0x61, 0, 0x66] [0x61, 0, 0x66] ∧
    AreWords [0xE4, 0, 0, 0, 1, 2, 0, 0] [0xE4, 0x201] := by
  refine ⟨⟨by decide, _, rfl⟩, fun h => absurd h.1 (by decide), by decide, ?_⟩
  intro i hi
  match i, hi with
  | 0, _ => rfl
  | 1, _ => rfl

example : (callsOf (fuzzToAscii (recLib someAnswers) [0xE4, 0, 0, 0, 0, 0, 0, 0, 1, 2, 0, 0])).map
    (·.drop 12) = some (to_ascii_4i (some [0xE4, 0, 0x201]) (some 64) 0 ::
      ([0, 1, 4, 8, 36, 40].map (to_ascii_4i2 (some [0xE4, 0, 0x201]) true) ++
       [0, 1, 4, 8, 36, 40].map (to_ascii_4z (some [0xE4]) true))) := by decide

example : callsOf (fuzzToUnicode (recLib someAnswers) [0x62, 0, 0, 0]) =
    some [check_version (some [0x62]), to_unicode_lzlz (some [0x62]) true 0,
      to_unicode_44i (some [0x62]) (some 1) (some 1) 0] := by decide

example : callsOf (fuzzToUnicode (recLib someAnswers) (List.replicate 1025 0x61)) = some [] := by
  decide +kernel

end Idn2
