import Verif.Model.TestLookupCalls
import Verif.Props.TestLookup
import Verif.Props.Fuzz
import Verif.Props.FuzzCalls
import Verif.Props.Extension

/-
Property C94: the calls of tests/test-lookup.c outside of its tables.
-/

namespace Idn2.TestLookup
open Spec

variable {E : Env} {D : Data} {F : Nat → Bool} {L : List Nat}

/-! ### The single calls -/

/-- "abc" is looked up as itself, with the flags of the macros and without any. -/
theorem lookup_dummy (W : World E D) (hM : E.U.isM 0x61 = false) {g : Nat} (hg : ¬ Conflict g)
    (h2 : g.testBit 2 = false) (h6 : g.testBit 6 = false) (h7 : g.testBit 7 = false) :
    LookupOk E g dummy dummy := by
  have h8 : utf8s dummy = dummy := by decide
  have h64 : LookupOk E 64 (utf8s dummy) dummy := by
    have h := C11_ascii_passthrough W (flags := 64) (s := dummy) (by decide) (by decide) (by decide)
      (by decide) (by decide)
    rw [if_pos (by decide)] at h
    rwa [h8]
  have := C75_extension W hg h2 h6 h7 (u := dummy) (n := dummy) (by unfold isScalar; decide) ?_ h64
  · rwa [h8] at this
  · intro l hl
    rw [show splitDot dummy = [dummy] by decide, List.mem_singleton] at hl
    subst hl
    have hx : ¬ xn <+: dummy := by decide
    refine ⟨fun c hc => .inl (W.data.ldh c ?_).2, by decide, fun _ => by decide, ?_,
      fun t v h => absurd ⟨t, h.symm⟩ hx⟩
    · unfold isLowerLDH
      revert c
      decide
    · rintro c ⟨rfl⟩
      exact hM

theorem tri_pure_bind {α β : Type} {x : HeapM α} {a : α} (hx : x = pure a) {f : α → HeapM β}
    {Q : β → List Nat → Prop} (h : Tri F (f a) L Q) : Tri F (x >>= f) L Q := by
  rw [hx]
  exact Tri.bind (Tri.pure (Q := fun b L' => b = a ∧ L' = L) ⟨rfl, rfl⟩)
    (by rintro _ _ _ ⟨rfl, rfl⟩; exact h)

/-- The outcome of a single call that is to be freed. -/
theorem tri_specialFree (W : World E D) {fh : Option Cell → HeapM (Option Rc × Option Cell)}
    {fo : Option Cell → Out (Option Rc × Option Cell)} (hc : Call E fh fo) {n : List Nat}
    (h : fo (some (.old 0)) = .val (none, some (.buf 0 n))) :
    Tri F (specialFree (fh (some (.old 0)))) L
      (fun k L' => L' = L ∧ (k = 0 ∨ ∃ j, F j = true)) := by
  obtain ⟨w, _, hw⟩ := call_closed W hc
  have hwn : w = .ok n := by
    have := (hw (some (.old 0))).1
    rw [h] at this
    cases w <;> simp [retOf] at this
    exact congrArg _ this.symm
  refine Tri.bind ((hw (some (.old 0))).2 F L) ?_
  intro r L' _ hr
  rcases ends_some hr with ⟨hk, rfl, rfl⟩ | ⟨e, he, _, _⟩ | ⟨n, p, _, rfl, rfl⟩
  · exact tri_pure_bind rfl (Tri.pure ⟨rfl, .inr hk⟩)
  · rw [hwn] at he; cases he
  · refine Tri.bind Tri.freeHead ?_
    rintro _ _ _ rfl
    exact Tri.pure ⟨rfl, .inl rfl⟩

theorem out_specialFree {x : Out (Option Rc × Option Cell)} {n : List Nat}
    (h : x = .val (none, some (.buf 0 n))) : specialFree x = .val 0 := by
  rw [h]
  rfl

theorem takeWhile_dummy : utf8s ((dummy ++ [0]).takeWhile (· != 0)) = dummy := by decide

/-- C94.  The seven single calls succeed with this library; the counter of failures grows only if
an allocation fails, and then nothing is leaked either. -/
theorem C94_special (W : World E D) (hM : E.U.isM 0x61 = false) :
    (special (lookupLib E) : Out Nat) = .val 0 ∧
    ∀ h : Heap, h.Ok → ∃ k h', (special (lookupLib E) : HeapM Nat) h = .val (k, h') ∧ h'.live = h.live ∧
      (k = 0 ∨ Failed h h') := by
  have h9 := lookup_dummy W hM (g := 0 ||| 1 ||| 8) (by decide) (by decide) (by decide) (by decide)
  have h0 := lookup_dummy W hM (g := 0) (by decide) (by decide) (by decide) (by decide)
  have hs : ∀ c ∈ dummy, isScalar c := by unfold isScalar; decide
  have hs0 : ∀ c ∈ dummy ++ [0], isScalar c := by unfold isScalar; decide
  have c7 : (idna_to_ascii_8z E (some dummy) (some (.old 0)) (0 ||| 1 ||| 8) : Out _) =
      .val (none, some (.buf 0 dummy)) := h9
  have c8 : (idna_to_ascii_4z E (some dummy) (some (.old 0)) (0 ||| 1 ||| 8) : Out _) =
      .val (none, some (.buf 0 dummy)) :=
    ((C16_4z E (by decide) (some (.old 0)) _).1 hs).trans h9
  have c9 : (idn2_to_ascii_4i2 E (some (dummy ++ [0])) (some (.old 0)) 0 : Out _) =
      .val (none, some (.buf 0 dummy)) := by
    rw [(C16_4i2 W _ (some (.old 0)) 0).1 hs0, takeWhile_dummy]
    exact h0
  constructor
  · simp only [special, lookupLib]
    rw [out_specialFree c7, out_specialFree c8, out_specialFree c9]
    rfl
  · intro h hok
    have key : ∀ F, Tri F (special (lookupLib E) : HeapM Nat) h.live
        (fun k L' => L' = h.live ∧ (k = 0 ∨ ∃ j, F j = true)) := by
      intro F
      unfold special
      refine tri_pure_bind rfl (tri_pure_bind rfl (tri_pure_bind rfl (tri_pure_bind rfl ?_)))
      refine Tri.bind (tri_specialFree W (.to_ascii_8z (s := dummy) (by decide) (0 ||| 1 ||| 8)) c7) ?_
      rintro n7 _ _ ⟨rfl, h7⟩
      refine Tri.bind (tri_specialFree W (.to_ascii_4z (a := dummy) (by decide) (0 ||| 1 ||| 8)) c8) ?_
      rintro n8 _ _ ⟨rfl, h8⟩
      refine Tri.bind (tri_specialFree W (.to_ascii_4i2 (dummy ++ [0]) 0) c9) ?_
      rintro n9 _ _ ⟨rfl, h9⟩
      refine Tri.pure ⟨rfl, ?_⟩
      rcases h7 with rfl | h7
      · rcases h8 with rfl | h8
        · rcases h9 with rfl | h9
          · exact .inl rfl
          · exact .inr h9
        · exact .inr h8
      · exact .inr h7
    obtain ⟨k, h', F, e1, _, ⟨e3, e5⟩, e4⟩ := tri_window
      (Q := fun F k L' => L' = h.live ∧ (k = 0 ∨ ∃ j, F j = true)) key hok rfl
    exact ⟨k, h', e1, e3, e5.imp id e4⟩

/-! ### All code points -/

theorem keeps_rangeOne (W : World E D) (i : Nat) : Keeps F L (rangeOne (lookupLib E) i : HeapM Unit) := by
  unfold rangeOne
  refine Tri.bind (tri_libConv _) ?_
  have hn : Keeps F L (eachFlag (fun f => callFree (idn2_lookup_u8 E none (some (.old 0)) f))
      rangeFlags : HeapM Unit) := Keeps.eachFlag (fun f => keeps_null rfl) _
  rintro _ _ _ (⟨_, rfl, rfl⟩ | ⟨_, rfl, rfl⟩ | ⟨a, p, ha, rfl, rfl⟩)
  · exact hn
  · exact hn
  simp only
  have h0 : 0 ∉ utf8s ([i].takeWhile (· != 0)) := zero_mem_utf8s (mem_takeWhile_ne _)
  rw [arr_cstr (a := [i]) ha]
  simp only
  refine Tri.bind (Keeps.eachFlag (L := p :: L) (fun f => Keeps.bind (Keeps.touch List.mem_cons_self)
    fun _ => keeps_freed W (.lookup_u8 h0 f)) _) ?_
  rintro _ _ _ rfl
  exact Tri.freeHead

theorem keeps_rangeLoop (W : World E D) (n i : Nat) :
    Keeps F L (rangeLoop (lookupLib E) n i : HeapM Unit) := by
  induction n generalizing i with
  | zero => exact Keeps.pure _
  | succ n ih => exact Keeps.bind (keeps_rangeOne W i) fun _ => ih (i + 1)

theorem out_callFree (W : World E D) {fh : Option Cell → HeapM (Option Rc × Option Cell)}
    {fo : Option Cell → Out (Option Rc × Option Cell)} (hc : Call E fh fo) :
    callFree (fo (some (.old 0))) = .val () := by
  obtain ⟨w, hu, hw⟩ := call_closed W hc
  rw [(hw _).1]
  cases w with
  | ub => exact absurd rfl hu
  | err e => rfl
  | ok n => rfl

theorem out_eachFlag {f : Nat → Out Unit} (hf : ∀ x, f x = .val ()) (l : List Nat) :
    eachFlag f l = .val () := by
  induction l with
  | nil => rfl
  | cons x r ih =>
    unfold eachFlag
    rw [hf, ih]
    rfl

theorem out_rangeOne (W : World E D) (i : Nat) : (rangeOne (lookupLib E) i : Out Unit) = .val () := by
  unfold rangeOne libConv
  simp only [Out.malloc_eq, Out.bind_val]
  cases ha : u8Encode [i, 0] with
  | none => exact out_eachFlag (fun f => rfl) _
  | some a =>
    have h0 : 0 ∉ utf8s ([i].takeWhile (· != 0)) := zero_mem_utf8s (mem_takeWhile_ne _)
    simp only [Out.pure_eq, Out.bind_val, arr_cstr (a := [i]) ha]
    rw [out_eachFlag (fun f => ?_)]
    · rfl
    · exact out_callFree W (.lookup_u8 h0 f)

theorem out_rangeLoop (W : World E D) (n i : Nat) : (rangeLoop (lookupLib E) n i : Out Unit) = .val () := by
  induction n generalizing i with
  | zero => rfl
  | succ n ih =>
    unfold rangeLoop
    rw [out_rangeOne W, ih]
    rfl

/-- C94.  The test of all code points has no undefined behaviour and leaks nothing, whichever
allocations fail; in particular the numbers that are no scalar values do not lead to the use of a
null pointer. -/
theorem C94_range (W : World E D) {h : Heap} (hok : h.Ok) :
    ∃ h', (test_unicode_range (lookupLib E) : HeapM Unit) h = .val ((), h') ∧ h'.live = h.live := by
  obtain ⟨_, h', e1, _, _, e4, _⟩ := keeps_rangeLoop (F := h.fails) (L := h.live) W 0x11FFFF 0 h hok
    rfl rfl
  exact ⟨h', e1, e4⟩

/-! ### Which calls are made -/

/-- A call of a library that writes it down, and answers with an error code, a null pointer or a
new string. -/
def recCall (A : LibCall → Except Rc (Option (List Nat))) (c : LibCall) (out : Option Cell) :
    RecM (Option Rc × Option Cell) :=
  fun l => .val (match A c with
    | .ok s => (none, out.map fun _ => match s with | none => Cell.null | some s => .buf 0 s)
    | .error e => (some e, out), l ++ [c])

/-- This library. -/
def recLookup (A : LibCall → Except Rc (Option (List Nat))) : LookupLib RecM where
  lookup_u8 i out f := recCall A (.lookup_u8 i out.isSome f) out
  lookup_ul i out f := recCall A (.lookup_ul i out.isSome f) out
  to_ascii_8z i out f := recCall A (.to_ascii_8z i out.isSome f) out
  to_ascii_4z i out f := recCall A (.to_ascii_4z i out.isSome f) out
  to_ascii_4i2 i out f := recCall A (.to_ascii_4i2 i out.isSome f) out

variable (A : LibCall → Except Rc (Option (List Nat)))

theorem makes_specialRc (c : LibCall) (out : Option Cell) :
    Makes (specialRc (recCall A c out)) [c] (if SingleMeets false (A c) then 0 else 1) := fun l => by
  show (match recCall A c out l with
    | .val (a, l') => (pure (if a.1 = none then 0 else 1) : RecM Nat) l' | .ub => Out.ub) = _
  unfold recCall
  cases h : A c <;> simp [SingleMeets, Pure.pure]

theorem makes_specialNull (c : LibCall) (n : Nat) :
    Makes (specialNull (recCall A c (some (.old n)))) [c]
      (if SingleMeets true (A c) then 0 else 1) := fun l => by
  show (match recCall A c (some (.old n)) l with
    | .val (a, l') => (pure (if a.1 = none ∧ a.2 = some Cell.null then 0 else 1) : RecM Nat) l'
    | .ub => Out.ub) = _
  unfold recCall
  cases h : A c with
  | error e => simp [SingleMeets, Pure.pure]
  | ok s => cases s <;> simp [SingleMeets, Pure.pure]

theorem makes_free (c : LibCall) (n : Nat) :
    Makes (callFree (recCall A c (some (.old n)))) [c] () := fun l => by
  show (match recCall A c (some (.old n)) l with
    | .val (a, l') => (freeResult a : RecM Unit) l' | .ub => Out.ub) = _
  unfold recCall
  cases h : A c with
  | error e => simp [freeResult, Pure.pure]
  | ok s => cases s <;> simp [freeResult, idn2_free, freeOpt, CMem.free, Pure.pure]

theorem makes_specialFree (c : LibCall) (n : Nat) :
    Makes (specialFree (recCall A c (some (.old n)))) [c]
      (if SingleMeets false (A c) then 0 else 1) := fun l => by
  show (match recCall A c (some (.old n)) l with
    | .val (a, l') => (freeResult a >>= fun _ => pure (if a.1 = none then 0 else 1) : RecM Nat) l'
    | .ub => Out.ub) = _
  unfold recCall
  cases h : A c with
  | error e => simp [SingleMeets, freeResult, Pure.pure, Bind.bind]
  | ok s =>
    cases s <;> simp [SingleMeets, freeResult, idn2_free, freeOpt, CMem.free, Pure.pure, Bind.bind]

/-- C94, for any library: the seven single calls are these, and the answers that are not as asked
for are counted. -/
theorem C94_singles :
    Makes (special (recLookup A)) (singleCalls.map (·.1))
      (singleCalls.map fun x => if SingleMeets x.2 (A x.1) then 0 else 1).sum := by
  let k : LibCall × Bool → Nat := fun x => if SingleMeets x.2 (A x.1) then 0 else 1
  have h : Makes (special (recLookup A))
      ([.lookup_u8 none false 0] ++ ([.lookup_u8 none true 0] ++ ([.lookup_ul none false 0] ++
      ([.lookup_ul none true 0] ++ ([.to_ascii_8z (some dummy) true 9] ++
      ([.to_ascii_4z (some dummy) true 9] ++ ([.to_ascii_4i2 (some (dummy ++ [0])) true 0] ++ [])))))))
      (k (.lookup_u8 none false 0, false) + k (.lookup_u8 none true 0, true) +
      k (.lookup_ul none false 0, false) + k (.lookup_ul none true 0, true) +
      k (.to_ascii_8z (some dummy) true 9, false) + k (.to_ascii_4z (some dummy) true 9, false) +
      k (.to_ascii_4i2 (some (dummy ++ [0])) true 0, false)) := by
    refine Makes.bind (makes_specialRc A _ none) ?_
    refine Makes.bind (makes_specialNull A _ 0x123) ?_
    refine Makes.bind (makes_specialRc A _ none) ?_
    refine Makes.bind (makes_specialNull A _ 0x123) ?_
    refine Makes.bind (makes_specialFree A _ 0) ?_
    refine Makes.bind (makes_specialFree A _ 0) ?_
    refine Makes.bind (makes_specialFree A _ 0) ?_
    exact Makes.pure _
  intro l
  refine (h l).trans ?_
  simp only [singleCalls, List.map_cons, List.map_nil, List.sum_cons, List.sum_nil,
    Nat.add_assoc, Nat.add_zero]
  rfl

theorem makes_rangeOne (i : Nat) : Makes (rangeOne (recLookup A) i) (rangeCalls i) () := by
  have hz : isScalar 0 := .inl (by decide)
  by_cases hi : isScalar i
  · have he : u8Encode ([i] ++ [0]) = some (utf8s ([i] ++ [0])) := u8Encode_zero (by simpa using hi)
    have hc := arr_cstr he
    have hs : utf8s ([i].takeWhile (· != 0)) = if i = 0 then [] else utf8 i := by
      by_cases h0 : i = 0
      · subst h0; rfl
      · rw [if_neg h0, List.takeWhile_cons_of_pos (by simpa using h0)]
        simp [utf8s]
    rw [hs] at hc
    have hl : Makes (libConv (u8Encode [i, 0]) : RecM (LibRet (List Nat))) []
        (.val (utf8s ([i] ++ [0])) 0) := fun l => by
      rw [show [i, 0] = [i] ++ [0] from rfl, he]
      simp [libConv, malloc, Bind.bind, Pure.pure]
    refine Makes.silent hl ?_
    simp only [hc]
    have := Makes.bind (makes_eachFlag (f := fun f => do
        touch 0
        callFree ((recLookup A).lookup_u8 (some (if i = 0 then [] else utf8 i)) (some (.old 0)) f))
      (g := fun f => [.lookup_u8 (some (if i = 0 then [] else utf8 i)) true f])
      (fun f => Makes.silent (makes_touch 0) (makes_free A _ 0)) rangeFlags)
      (f := fun _ => cfree 0) (Idn2.makes_free 0)
    unfold rangeCalls
    rw [if_pos hi]
    exact this
  · have hl : Makes (libConv (u8Encode [i, 0]) : RecM (LibRet (List Nat))) [] .other := fun l => by
      rw [show [i, 0] = [i] ++ [0] from rfl, u8Encode_zero_none (by simpa using hi)]
      simp [libConv, malloc, Bind.bind, Pure.pure, cfree, CMem.free]
    refine Makes.silent hl ?_
    unfold rangeCalls
    rw [if_neg hi]
    exact makes_eachFlag (g := fun f => [.lookup_u8 none true f]) (fun f => makes_free A _ 0) rangeFlags

theorem makes_rangeLoop (n i : Nat) :
    Makes (rangeLoop (recLookup A) n i) ((List.range' i n).flatMap rangeCalls) () := by
  induction n generalizing i with
  | zero => exact Makes.pure ()
  | succ n ih =>
    rw [List.range'_succ, List.flatMap_cons]
    exact Makes.bind (makes_rangeOne A i) (ih (i + 1))

/-- C94, for any library: every number below 0x11FFFF is looked up by itself in the five modes. -/
theorem C94_range_calls : Makes (test_unicode_range (recLookup A))
    ((List.range 0x11FFFF).flatMap rangeCalls) () := by
  rw [List.range_eq_range']
  exact makes_rangeLoop A 0x11FFFF 0

/-- The whole program, run on the library. -/
def mainLib (E : Env) (old : Bool) (rows : List Row) (file : Option (List Nat)) :
    Out (Nat × Option (Nat × Nat)) := do
  let k ← special (lookupLib E)
  test_unicode_range (lookupLib E)
  main (libOf E) old rows k file

/-- C94.  With this library the exit status depends only on the table and the file. -/
theorem C94_program (W : World E D) (hM : E.U.isM 0x61 = false) (old : Bool) (rows : List Row)
    (file : Option (List Nat)) :
    mainLib E old rows file = main (libOf E) old rows 0 file := by
  unfold mainLib test_unicode_range
  rw [(C94_special W hM).1, out_rangeLoop W]
  rfl

/-- With the sample data the hypothesis holds.  For ä five lookups are made; U+D800 cannot be
converted, and neither can 0x110000. -/
example : Sample.E.U.isM 0x61 = false ∧ u8Encode [0xD800, 0] = none ∧ u8Encode [0x110000, 0] = none ∧
    (rangeFlags.map fun f => libOf Sample.E (utf8s [0xE4]) f).all
      (· == .ok [0x78, 0x6E, 0x2D, 0x2D, 0x34, 0x63, 0x61]) := by
  decide +kernel

/-- Where the third allocation of the single calls fails, one of them counts as failed. -/
example : (match (special (lookupLib Sample.E) : HeapM Nat) (failing 3) with
    | .val (k, h) => some (k, h.live) | _ => none) = some (1, [0]) := by
  decide +kernel

end Idn2.TestLookup
