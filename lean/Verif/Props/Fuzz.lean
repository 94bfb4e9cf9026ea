import Verif.Model.Fuzz
import Verif.Props.Heap
import Verif.Props.Cli

/-
Property C69: the fuzz targets.
-/

namespace Idn2
open Spec

variable {F : Nat → Bool} {L : List Nat} {version : List Nat}

/-- The allocated blocks are the same before and after. -/
def Keeps {α : Type} (F : Nat → Bool) (L : List Nat) (x : HeapM α) : Prop :=
  Tri F x L (fun _ L' => L' = L)

theorem Keeps.bind {α β : Type} {x : HeapM α} {f : α → HeapM β} (hx : Keeps F L x)
    (hf : ∀ a, Keeps F L (f a)) : Keeps F L (x >>= f) :=
  Tri.bind hx fun a _ _ h => h ▸ hf a

theorem Keeps.pure {α : Type} (a : α) : Keeps F L (pure a : HeapM α) := Tri.pure rfl

theorem Keeps.touch {p : Nat} (h : p ∈ L) : Keeps F L (touch p : HeapM Unit) := Tri.touch h

theorem Keeps.drop {α : Type} {x : HeapM α} (h : Keeps F L x) : Keeps F L (drop x) :=
  Keeps.bind h fun _ => Keeps.pure _

theorem Keeps.ifEmpty {data : List Nat} {x : HeapM Unit} (h : Keeps F L x) :
    Keeps F L (ifEmpty data x) := by
  unfold Idn2.ifEmpty
  split
  · exact h
  · exact Keeps.pure _

theorem Keeps.eachFlag {f : Nat → HeapM Unit} (hf : ∀ x, Keeps F L (f x)) (l : List Nat) :
    Keeps F L (eachFlag f l) := by
  induction l with
  | nil => exact Keeps.pure _
  | cons x r ih => exact Keeps.bind (hf x) fun _ => ih

/-- A call with an output parameter whose result is freed. -/
theorem keeps_freed {E : Env} {D : Data} (W : World E D)
    {fh : Option Cell → HeapM (Option Rc × Option Cell)}
    {fo : Option Cell → Out (Option Rc × Option Cell)} (hc : Call E fh fo) :
    Keeps F L (callFree (fh (some (.old 0)))) := by
  obtain ⟨w, _, hw⟩ := call_closed W hc
  refine Tri.bind ((hw (some (.old 0))).2 F L) ?_
  intro r L' _ hr
  rcases ends_some hr with ⟨_, rfl, rfl⟩ | ⟨e, _, rfl, rfl⟩ | ⟨n, p, _, rfl, rfl⟩
  · exact Tri.pure rfl
  · exact Tri.pure rfl
  · exact Tri.freeHead

/-- A call without an output parameter. -/
theorem keeps_dropped {E : Env} {D : Data} (W : World E D)
    {fh : Option Cell → HeapM (Option Rc × Option Cell)}
    {fo : Option Cell → Out (Option Rc × Option Cell)} (hc : Call E fh fo) :
    Keeps F L (drop (fh none)) := by
  obtain ⟨w, _, hw⟩ := call_closed W hc
  refine Keeps.drop (((hw none).2 F L).imp ?_)
  rintro r L' _ (⟨_, _, h⟩ | ⟨e, _, _, h⟩ | ⟨n, _, _, _, h⟩ | ⟨n, c, p, _, h, _⟩)
  · exact h
  · exact h
  · exact h
  · cases h

/-- What a null input stores is freed as well. -/
theorem keeps_null {x : HeapM (Option Rc × Option Cell)} (h : x = pure (none, some .null)) :
    Keeps F L (callFree x) := by
  rw [h]
  exact Tri.bind (Tri.pure (Q := fun r L' => r = (none, some Cell.null) ∧ L' = L) ⟨rfl, rfl⟩)
    (by rintro _ _ _ ⟨rfl, rfl⟩; exact Tri.pure rfl)

theorem keeps_const {α : Type} {x : HeapM α} {a : α} (h : x = pure a) : Keeps F L (drop x) := by
  rw [h]; exact Keeps.drop (Keeps.pure _)

theorem lineStr_zero (l : List Nat) : 0 ∉ lineStr l := mem_takeWhile_ne l

/-- The end of a run: an assertion fails only after a failed allocation, and a run that returns
has freed everything. -/
def Returns (F : Nat → Bool) (L : List Nat) (x : FuzzEnd) (L' : List Nat) : Prop :=
  (x = .abort ∧ ∃ k, F k = true) ∨ (x = .done ∧ L' = L)

theorem tri_fuzzRegister {E : Env} {D : Data} (W : World E D) (data : List Nat) :
    Tri F (fuzzRegister (libidn2 E version) data : HeapM _) L (Returns F L) := by
  unfold fuzzRegister
  split
  · exact Tri.pure (Or.inr ⟨rfl, rfl⟩)
  refine Tri.bind Tri.malloc ?_
  rintro _ _ _ (⟨hk, rfl, rfl⟩ | ⟨up, rfl, rfl⟩)
  · exact Tri.pure (Or.inl ⟨rfl, hk⟩)
  simp only
  refine Tri.bind Tri.touchHead ?_
  rintro _ _ _ rfl
  refine Tri.bind (Keeps.ifEmpty (L := up :: L) (x := fuzzRegisterNull (libidn2 E version) up (lineStr data)) ?_) ?_
  · unfold fuzzRegisterNull
    refine Keeps.bind (keeps_null rfl) fun _ =>
      Keeps.bind (Keeps.touch List.mem_cons_self) fun _ => ?_
    exact keeps_dropped W (.register_ul (ul := some _) (al := none) (Or.inl (by simp)) 0)
  rintro _ _ _ rfl
  refine Tri.bind Tri.touchHead ?_
  rintro _ _ _ rfl
  refine Tri.bind (keeps_freed W (.register_ul (ul := some (lineStr data)) (al := none)
    (Or.inl (by simp)) 0)) ?_
  rintro _ _ _ rfl
  refine Tri.bind Tri.freeHead ?_
  rintro _ _ _ rfl
  unfold fuzzRegisterAlabel
  refine Tri.bind Tri.malloc ?_
  rintro _ _ _ (⟨hk, rfl, rfl⟩ | ⟨ap, rfl, rfl⟩)
  · exact Tri.pure (Or.inl ⟨rfl, hk⟩)
  simp only
  refine Tri.bind Tri.touchHead ?_
  rintro _ _ _ rfl
  refine Tri.bind (keeps_freed W (.register_ul (ul := none) (al := some (fuzzAlabel data))
    (Or.inr (by simp)) 0)) ?_
  rintro _ _ _ rfl
  refine Tri.bind (Keeps.ifEmpty (Keeps.bind (Keeps.touch List.mem_cons_self) fun _ =>
    keeps_dropped W (.register_ul (ul := none) (al := some (fuzzAlabel data)) (Or.inr (by simp)) 0))) ?_
  rintro _ _ _ rfl
  refine Tri.bind Tri.freeHead ?_
  rintro _ _ _ rfl
  exact Tri.pure (Or.inr ⟨rfl, rfl⟩)

/-- A call that fills an array of the caller. -/
theorem keeps_buf {α : Type} {x : HeapM α} {v : Res (List Nat)} {fail : Rc → α} {ok : List Nat → α}
    (h : Tri F x L (EndsBuf F v fail ok L)) : Keeps F L (drop x) :=
  Keeps.drop (h.imp fun _ _ _ h => h.1)

theorem keeps_fuzzToAsciiNull {E : Env} {D : Data} (W : World E D) (U : E.U.Locale) {dp : Nat}
    (hd : dp ∈ L) (data : List Nat) :
    Keeps F L (fuzzToAsciiNull (libidn2 E version) dp (lineStr data) : HeapM Unit) := by
  unfold fuzzToAsciiNull
  have hz := lineStr_zero data
  have hl : ∀ t, E.U.fromLocale (lineStr data) = some t → 0 ∉ t := fun t ht => (U.from_ok _ t ht).2
  refine Keeps.bind (keeps_null rfl) fun _ => Keeps.bind (keeps_const rfl) fun _ =>
    Keeps.bind (Keeps.touch hd) fun _ => Keeps.bind (keeps_dropped W (.to_ascii_8z hz 0)) fun _ => ?_
  refine Keeps.bind (keeps_null rfl) fun _ => Keeps.bind (keeps_const rfl) fun _ =>
    Keeps.bind (Keeps.touch hd) fun _ => Keeps.bind (keeps_dropped W (.to_ascii_lz hl 0)) fun _ => ?_
  refine Keeps.bind (keeps_const rfl) fun _ => Keeps.bind (keeps_const rfl) fun _ =>
    Keeps.bind (keeps_buf (tri_4i W 0 [] (by simp))) fun _ => ?_
  refine Keeps.bind (keeps_null rfl) fun _ => Keeps.bind (keeps_const rfl) fun _ =>
    Keeps.bind (keeps_dropped W (.to_ascii_4i2 [] 0)) fun _ => ?_
  exact Keeps.bind (keeps_null rfl) fun _ => Keeps.bind (keeps_const rfl) fun _ =>
    keeps_dropped W (.to_ascii_4z (by simp) 0)

theorem keeps_fuzzToAscii32 {E : Env} {D : Data} (W : World E D) {wp op : Nat} (hw : wp ∈ L)
    (ho : op ∈ L) (data : List Nat) : Keeps F L (fuzzToAscii32 (libidn2 E version) wp op data : HeapM Unit) := by
  unfold fuzzToAscii32
  refine Keeps.bind (Keeps.touch ho) fun _ => Keeps.bind
    (keeps_buf (tri_4i W 0 _ (by rintro _ ⟨rfl⟩; simp))) fun _ => ?_
  refine Keeps.bind (Keeps.eachFlag (fun x => keeps_freed W (.to_ascii_4i2 (words data) x)) _) fun _ =>
    Keeps.bind (Keeps.touch hw) fun _ => ?_
  exact Keeps.eachFlag (fun x => Keeps.bind (Keeps.touch hw) fun _ =>
    keeps_freed W (.to_ascii_4z (lineStr_zero (words data)) x)) _

theorem tri_fuzzToAscii {E : Env} {D : Data} (W : World E D) (U : E.U.Locale) (data : List Nat) :
    Tri F (fuzzToAscii (libidn2 E version) data : HeapM _) L (Returns F L) := by
  have hz := lineStr_zero data
  have hl : ∀ t, E.U.fromLocale (lineStr data) = some t → 0 ∉ t := fun t ht => (U.from_ok _ t ht).2
  unfold fuzzToAscii
  split
  · exact Tri.pure (Or.inr ⟨rfl, rfl⟩)
  refine Tri.bind Tri.malloc ?_
  rintro _ _ _ (⟨hk, rfl, rfl⟩ | ⟨dp, rfl, rfl⟩)
  · exact Tri.pure (Or.inl ⟨rfl, hk⟩)
  simp only
  refine Tri.bind Tri.touchHead ?_
  rintro _ _ _ rfl
  refine Tri.bind (Keeps.ifEmpty (keeps_fuzzToAsciiNull W U List.mem_cons_self data)) ?_
  rintro _ _ _ rfl
  refine Tri.bind (Keeps.eachFlag (fun x => ?_) fuzzFlags) ?_
  · unfold fuzzRound
    exact Keeps.bind (Keeps.touch List.mem_cons_self) fun _ => Keeps.bind (keeps_freed W (.to_ascii_8z hz x))
      fun _ => Keeps.bind (Keeps.touch List.mem_cons_self) fun _ => keeps_freed W (.to_ascii_lz hl x)
  rintro _ _ _ rfl
  have h2 : Tri F (if data.length % 4 = 0 then fuzzToAsciiWords (libidn2 E version) data else pure .done : HeapM FuzzEnd)
      (dp :: L) (Returns F (dp :: L)) := by
    split
    · unfold fuzzToAsciiWords
      refine Tri.bind Tri.malloc ?_
      rintro u L1 _ hu
      refine Tri.bind Tri.malloc ?_
      rintro o L2 hn ho
      rcases hu with ⟨hk, rfl, rfl⟩ | ⟨wp, rfl, rfl⟩
      · rcases ho with ⟨hk', rfl, rfl⟩ | ⟨op, rfl, rfl⟩
        · exact Tri.pure (Or.inl ⟨rfl, hk⟩)
        · exact Tri.pure (Or.inl ⟨rfl, hk⟩)
      · rcases ho with ⟨hk', rfl, rfl⟩ | ⟨op, rfl, rfl⟩
        · exact Tri.pure (Or.inl ⟨rfl, hk'⟩)
        · simp only
          refine Tri.bind (keeps_fuzzToAscii32 W (by simp) (by simp) data) ?_
          rintro _ _ _ rfl
          refine Tri.bind Tri.freeHead ?_
          rintro _ _ _ rfl
          refine Tri.bind Tri.freeHead ?_
          rintro _ _ _ rfl
          exact Tri.pure (Or.inr ⟨rfl, rfl⟩)
    · exact Tri.pure (Or.inr ⟨rfl, rfl⟩)
  refine Tri.bind h2 ?_
  rintro _ _ _ (⟨rfl, hk⟩ | ⟨rfl, rfl⟩)
  · exact Tri.pure (Or.inl ⟨rfl, hk⟩)
  · simp only
    refine Tri.bind Tri.freeHead ?_
    rintro _ _ _ rfl
    exact Tri.pure (Or.inr ⟨rfl, rfl⟩)

theorem keeps_fuzzToUnicodeNull {E : Env} {D : Data} (W : World E D) (U : E.U.Locale)
    (hF : ∀ k, F k = false) {dp : Nat} (hd : dp ∈ L) (data : List Nat) :
    Keeps F L (fuzzToUnicodeNull (libidn2 E version) dp (lineStr data) : HeapM Unit) := by
  unfold fuzzToUnicodeNull
  have hz := lineStr_zero data
  have hl : ∀ t, E.U.fromLocale (lineStr data) = some t → 0 ∉ t := fun t ht => (U.from_ok _ t ht).2
  refine Keeps.bind (keeps_const rfl) fun _ => ?_
  refine Keeps.bind (keeps_null rfl) fun _ => Keeps.bind (keeps_const rfl) fun _ =>
    Keeps.bind (Keeps.touch hd) fun _ => Keeps.bind (keeps_dropped W (.to_unicode_lzlz hl 0)) fun _ => ?_
  refine Tri.bind Tri.malloc ?_
  rintro _ _ _ (⟨⟨k, hk⟩, _⟩ | ⟨ip, rfl, rfl⟩)
  · rw [hF] at hk; cases hk
  simp only
  refine Tri.bind Tri.touchHead ?_
  rintro _ _ _ rfl
  refine Tri.bind (keeps_null rfl) ?_
  rintro _ _ _ rfl
  refine Tri.bind (keeps_const rfl) ?_
  rintro _ _ _ rfl
  refine Tri.bind Tri.touchHead ?_
  rintro _ _ _ rfl
  refine Tri.bind (keeps_dropped W (.to_unicode_4z4z (a := []) (by simp) 0)) ?_
  rintro _ _ _ rfl
  refine Tri.bind Tri.freeHead ?_
  rintro _ _ _ rfl
  refine Keeps.bind (keeps_null rfl) fun _ => Keeps.bind (keeps_const rfl) fun _ =>
    Keeps.bind (Keeps.touch hd) fun _ => Keeps.bind (keeps_dropped W (.to_unicode_8z4z hz 0)) fun _ => ?_
  refine Tri.bind Tri.malloc ?_
  rintro _ _ _ (⟨⟨k, hk⟩, _⟩ | ⟨up, rfl, rfl⟩)
  · rw [hF] at hk; cases hk
  refine Tri.bind (keeps_const rfl) ?_
  rintro _ _ _ rfl
  refine Tri.bind (keeps_const rfl) ?_
  rintro _ _ _ rfl
  exact Tri.freeHead

theorem tri_fuzzToUnicode {E : Env} {D : Data} (W : World E D) (U : E.U.Locale)
    {data : List Nat} (hd : data ≠ [] ∨ ∀ k, F k = false) :
    Tri F (fuzzToUnicode (libidn2 E version) data : HeapM _) L (Returns F L) := by
  have hl : ∀ t, E.U.fromLocale (lineStr data) = some t → 0 ∉ t := fun t ht => (U.from_ok _ t ht).2
  unfold fuzzToUnicode
  split
  · exact Tri.pure (Or.inr ⟨rfl, rfl⟩)
  refine Tri.bind Tri.malloc ?_
  rintro _ _ _ (⟨hk, rfl, rfl⟩ | ⟨dp, rfl, rfl⟩)
  · exact Tri.pure (Or.inl ⟨rfl, hk⟩)
  simp only
  refine Tri.bind Tri.touchHead ?_
  rintro _ _ _ rfl
  refine Tri.bind (show Keeps F (dp :: L) (ifEmpty data _) from ?_) ?_
  · rcases hd with hd | hd
    · unfold ifEmpty
      rw [if_neg (fun h => hd (List.length_eq_zero_iff.mp h))]
      exact Keeps.pure ()
    · exact Keeps.ifEmpty (keeps_fuzzToUnicodeNull W U hd List.mem_cons_self data)
  rintro _ _ _ rfl
  refine Tri.bind Tri.touchHead ?_
  rintro _ _ _ rfl
  have h1 : Keeps F (dp :: L) (fuzzVersion (libidn2 E version) data : HeapM Unit) := by
    unfold fuzzVersion
    refine Tri.bind (Tri.pure (Q := fun _ L' => L' = dp :: L) rfl) ?_
    rintro v _ _ rfl
    split
    · refine Tri.bind Tri.malloc ?_
      rintro _ _ _ (⟨hk, rfl, rfl⟩ | ⟨p, rfl, rfl⟩)
      · exact Tri.pure rfl
      · exact Tri.freeHead
    · exact Keeps.pure _
  refine Tri.bind h1 ?_
  rintro _ _ _ rfl
  refine Tri.bind Tri.touchHead ?_
  rintro _ _ _ rfl
  refine Tri.bind (keeps_freed W (.to_unicode_lzlz hl 0)) ?_
  rintro _ _ _ rfl
  have h2 : Tri F (if data.length % 4 = 0 then fuzzToUnicodeWords (libidn2 E version) data else pure .done : HeapM FuzzEnd)
      (dp :: L) (Returns F (dp :: L)) := by
    split
    · unfold fuzzToUnicodeWords
      refine Tri.bind Tri.malloc ?_
      rintro _ _ _ (⟨hk, rfl, rfl⟩ | ⟨wp, rfl, rfl⟩)
      · exact Tri.pure (Or.inl ⟨rfl, hk⟩)
      simp only
      refine Tri.bind Tri.touchHead ?_
      rintro _ _ _ rfl
      refine Tri.bind (keeps_buf (tri_44i _ 0 (by rintro _ _ ⟨rfl⟩ ⟨rfl⟩; simp))) ?_
      rintro _ _ _ rfl
      refine Tri.bind Tri.freeHead ?_
      rintro _ _ _ rfl
      exact Tri.pure (Or.inr ⟨rfl, rfl⟩)
    · exact Tri.pure (Or.inr ⟨rfl, rfl⟩)
  refine Tri.bind h2 ?_
  rintro _ _ _ (⟨rfl, hk⟩ | ⟨rfl, rfl⟩)
  · exact Tri.pure (Or.inl ⟨rfl, hk⟩)
  · simp only
    refine Tri.bind Tri.freeHead ?_
    rintro _ _ _ rfl
    exact Tri.pure (Or.inr ⟨rfl, rfl⟩)

/-- A run from the heap `h` returns with the allocated blocks of the beginning, or ends in an
assertion after a failed allocation. -/
def Spec.FuzzSound (x : HeapM FuzzEnd) (h : Heap) : Prop :=
  ∃ e h', x h = .val (e, h') ∧ ((e = .done ∧ h'.live = h.live) ∨ (e = .abort ∧ Failed h h'))

theorem fuzzSound_of {x : HeapM FuzzEnd} (hx : ∀ F L, Tri F x L (Returns F L)) {h : Heap}
    (hok : h.Ok) : FuzzSound x h := by
  obtain ⟨r, h', F, e1, e2, e3, e4⟩ := tri_window (Q := fun F => Returns F h.live)
    (fun F => hx F h.live) hok rfl
  rcases e3 with ⟨rfl, hk⟩ | ⟨rfl, hl⟩
  · exact ⟨_, h', e1, Or.inr ⟨rfl, e4 hk⟩⟩
  · exact ⟨_, h', e1, Or.inl ⟨rfl, hl⟩⟩

/-- C69.  Whatever data the register and to-ASCII targets are run on, and whichever allocations
fail, there is no undefined behaviour and nothing is leaked. -/
theorem C69_targets {E : Env} {D : Data} (W : World E D) (U : E.U.Locale) (data : List Nat)
    {h : Heap} (hok : h.Ok) :
    FuzzSound (fuzzRegister (libidn2 E version) data) h ∧ FuzzSound (fuzzToAscii (libidn2 E version) data) h :=
  ⟨fuzzSound_of (fun _ _ => tri_fuzzRegister W data) hok,
   fuzzSound_of (fun _ _ => tri_fuzzToAscii W U data) hok⟩

/-- C69 for the to-Unicode target, if the data is not empty or no allocation fails.  For empty data
and a failed allocation see `C69_empty_undefined`. -/
theorem C69_to_unicode_partial {E : Env} {D : Data} (W : World E D) (U : E.U.Locale)
    (version data : List Nat) {h : Heap} (hok : h.Ok) :
    (data ≠ [] → FuzzSound (fuzzToUnicode (libidn2 E version) data) h) ∧
    ((∀ k, h.fails k = false) → FuzzSound (fuzzToUnicode (libidn2 E version) data) h) := by
  constructor
  · exact fun hd => fuzzSound_of (fun _ _ => tri_fuzzToUnicode W U (Or.inl hd)) hok
  · intro hF
    obtain ⟨r, h', e1, e2, e3, e4, _⟩ :=
      tri_fuzzToUnicode (F := h.fails) (L := h.live) W U (data := data) (Or.inr hF) h hok rfl rfl
    rcases e4 with ⟨_, k, hk⟩ | ⟨rfl, hl⟩
    · rw [hF] at hk; cases hk
    · exact ⟨_, h', e1, Or.inl ⟨rfl, hl⟩⟩

/-- Run the to-Unicode target on empty data where the allocation number `k` fails. -/
def emptyRun (k : Nat) : Option (FuzzEnd × List Nat) :=
  match (fuzzToUnicode (libidn2 utf8Env [0x32]) [] : HeapM _) (failing k) with
  | .val (e, h) => some (e, h.live)
  | .ub => none

/-- The to-Unicode target does not check one of its allocations: if that fails, the behaviour is
undefined. -/
theorem C69_empty_undefined :
    ∃ h : Heap, h.Ok ∧ ¬ FuzzSound (fuzzToUnicode (libidn2 utf8Env [0x32]) []) h := by
  refine ⟨failing 6, ⟨by simp [failing], by simp [failing]⟩, ?_⟩
  rintro ⟨e, h', hr, _⟩
  have : emptyRun 6 = none := by decide +kernel
  unfold emptyRun at this
  rw [hr] at this
  cases this

-- all other failures end well, and so does a run without failures
example : (∀ k ∈ [1, 14], (emptyRun k).map (·.1) = some .abort) ∧
    ∀ k ∈ [2, 3, 4, 5, 7, 8, 9, 10, 11, 12, 13, 15, 16, 17, 18], emptyRun k = some (.done, [0]) := by
  decide +kernel

/-- The run of the register target on "aä". -/
def registerRun (k : Nat) : Option (FuzzEnd × List Nat) :=
  match (fuzzRegister (libidn2 utf8Env [0x32]) [0x61, 0xC3, 0xA4] : HeapM _) (failing k) with
  | .val (e, h) => some (e, h.live)
  | .ub => none

example : registerRun 1 = some (.abort, [0]) ∧ registerRun 3 = some (.done, [0]) ∧
    registerRun 100 = some (.done, [0]) := by decide +kernel

/-- The register target is meant to test the A-label "xn--" followed by the data, but the zero it
stores cuts off four bytes: the last four bytes of the data are never part of the A-label. -/
theorem C69_alabel_cut (data : List Nat) (h0 : 0 ∉ data) :
    fuzzAlabel data = (acePrefix ++ data.take (data.length - 4)).take data.length ∧
      fuzzAlabel data ≠ acePrefix ++ data := by
  have hp : (acePrefix ++ data).take data.length =
      (acePrefix ++ data.take (data.length - 4)).take data.length := by
    rw [List.take_append, List.take_append, List.take_take]
    congr 2
    simp only [acePrefix, List.length_cons, List.length_nil]
    omega
  have hz : 0 ∉ (acePrefix ++ data).take data.length := by
    intro h
    rcases List.mem_append.mp (List.mem_of_mem_take h) with h | h
    · revert h; decide
    · exact h0 h
  have e : fuzzAlabel data = (acePrefix ++ data).take data.length := takeWhile_all hz
  refine ⟨e.trans hp, fun h => ?_⟩
  have := congrArg List.length (e.symm.trans h)
  rw [List.length_take, List.length_append] at this
  simp only [acePrefix, List.length_cons, List.length_nil] at this
  omega

example : fuzzAlabel [0x74, 0x64, 0x61] = [0x78, 0x6E, 0x2D] := by decide

end Idn2
