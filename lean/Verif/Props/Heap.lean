import Verif.Spec.Heap
import Verif.Proof.HeapEntry
import Verif.Data.Sample

/-
Properties C38-C41: null outputs, outputs after a failure, allocation failures, leaks.
-/

namespace Idn2
open Spec

/-- The failure that is blamed happened during the call. -/
theorem tri_window {α : Type} {x : HeapM α} {L : List Nat} {Q : (Nat → Bool) → α → List Nat → Prop}
    (hx : ∀ F, Tri F x L (Q F)) {h : Heap} (hok : h.Ok) (hL : h.live = L) :
    ∃ r h' F, x h = .val (r, h') ∧ h'.Ok ∧ Q F r h'.live ∧ ((∃ k, F k = true) → Failed h h') := by
  obtain ⟨r, h', e1, e2, e3, e4, e5, e6⟩ := hx h.fails h hok rfl hL
  have hw := e6 (fun k => h.fails k && decide (h.count ≤ k) && decide (k < h'.count)) (by
    intro k h1 h2
    simp [h1, h2])
  obtain ⟨r2, h2, g1, g2, g3, g4, _⟩ := hx
    (fun k => h.fails k && decide (h.count ≤ k) && decide (k < h'.count))
    { h with fails := fun k => h.fails k && decide (h.count ≤ k) && decide (k < h'.count) }
    ⟨hok.nodup, hok.lt⟩ rfl hL
  rw [hw] at g1
  injection g1 with g1
  injection g1 with ga gb
  subst ga gb
  refine ⟨r, h', _, e1, e2, g4, ?_⟩
  rintro ⟨k, hk⟩
  simp only [Bool.and_eq_true, decide_eq_true_eq] at hk
  exact ⟨k, hk.1.2, hk.2, hk.1.1⟩

/-! ### Closed forms -/

theorem arrP_out {E : Env} {D : Data} (W : World E D) (flags : Nat) (a : List Nat)
    (out : Option Cell) : arrP E D flags a ≠ .ub ∧
      (idn2_to_ascii_4i2 E (some a) out flags : Out _) = retOf out (arrP E D flags a) ∧
      (0 ∉ a → (idn2_to_ascii_4z E (some a) out flags : Out _) =
        retOf out (arrP E D flags a)) := by
  unfold arrP
  have hz := zero_mem_utf8s (mem_takeWhile_ne a)
  by_cases h : ∀ c ∈ a, isScalar c
  · rw [u8Encode_zero h]
    refine ⟨lookupF_ne_ub W flags hz, ?_, fun h0 => ?_⟩
    · rw [(C16_4i2 W a out flags).1 h]
      exact lookup_retOf W flags hz out
    · rw [(C16_4z E h0 out flags).1 h]
      have := lookup_retOf W flags hz out
      rw [takeWhile_all h0] at this ⊢
      exact this
  · rw [u8Encode_zero_none h]
    exact ⟨by simp, (C16_4i2 W a out flags).2 h, fun h0 => (C16_4z E h0 out flags).2 h⟩

theorem ulP_out {E : Env} {D : Data} (W : World E D) (flags : Nat) {s : List Nat}
    (h0 : ∀ t, E.U.fromLocale s = some t → 0 ∉ t) (out : Option Cell) : ulP E D flags s ≠ .ub ∧
      (idn2_lookup_ul E (some s) out flags : Out _) = retOf out (ulP E D flags s) := by
  unfold ulP
  obtain ⟨h1, h2, _⟩ := C45_locale_lookup E s none out flags
  cases h : E.U.fromLocale s with
  | none => exact ⟨by simp, (h1 h).1⟩
  | some t =>
    refine ⟨lookupF_ne_ub W _ (h0 t h), ?_⟩
    rw [(h2 t h).1]
    exact lookup_retOf W _ (h0 t h) out

theorem uniArrP_out (a : List Nat) (h0 : 0 ∉ a) (out : Option Cell) (flags : Nat) :
    uniArrP a ≠ .ub ∧
      (idn2_to_unicode_4z4z (some a) out flags : Out _) = retOf out (uniArrP a) := by
  unfold uniArrP
  by_cases h : ∀ c ∈ a, isScalar c
  · rw [u8Encode_zero h]
    refine ⟨uniP_ne_ub _, ?_⟩
    rw [(C18_4z4z h0 out flags).1 h, takeWhile_all h0]
    exact to_unicode_8z4z_out _ out flags
  · rw [u8Encode_zero_none h]
    exact ⟨by simp, (C18_4z4z h0 out flags).2 h⟩

theorem uni8P_out {s : List Nat} (h0 : 0 ∉ s) (out : Option Cell) (flags : Nat) :
    uni8P s ≠ .ub ∧ (idn2_to_unicode_8z8z (some s) out flags : Out _) = retOf out (uni8P s) := by
  unfold uni8P
  obtain ⟨h1, h2, h3⟩ := C18_8z8z h0 out flags
  cases h : uniP s with
  | ub => exact absurd h (uniP_ne_ub s)
  | err e => exact ⟨by simp, h3 e (ToUniErr_iff.mpr h)⟩
  | ok u =>
    simp only [Res.bind_ok]
    by_cases hu : ∀ c ∈ u, isScalar c
    · rw [u8Encode_zero hu]
      exact ⟨by simp, h1 u (ToUniOk_iff.mpr h) hu⟩
    · rw [u8Encode_zero_none hu]
      exact ⟨by simp, h2 u (ToUniOk_iff.mpr h) hu⟩

theorem uniLocP_out (E : Env) {s : List Nat} (h0 : 0 ∉ s) (out : Option Cell) (flags : Nat) :
    uniLocP E s ≠ .ub ∧
      (idn2_to_unicode_8zlz E (some s) out flags : Out _) = retOf out (uniLocP E s) := by
  unfold uniLocP
  obtain ⟨_, _, h1, h2⟩ := C45_locale_unicode E s out flags
  obtain ⟨hn, ho⟩ := uni8P_out h0 (some (.old 0)) flags
  cases h : uni8P s with
  | ub => exact absurd h hn
  | err e =>
    rw [h] at ho
    exact ⟨by simp, h2 e ho⟩
  | ok u =>
    rw [h] at ho
    obtain ⟨h3, h4⟩ := h1 u ho
    simp only [Res.bind_ok]
    cases hl : E.U.toLocale u with
    | none => exact ⟨by simp, h3 hl⟩
    | some l => exact ⟨by simp, h4 l hl⟩

theorem uniLocLocP_out (E : Env) {s : List Nat} (h0 : ∀ t, E.U.fromLocale s = some t → 0 ∉ t)
    (out : Option Cell) (flags : Nat) : uniLocLocP E s ≠ .ub ∧
      (idn2_to_unicode_lzlz E (some s) out flags : Out _) = retOf out (uniLocLocP E s) := by
  unfold uniLocLocP
  obtain ⟨h1, h2, _⟩ := C45_locale_unicode E s out flags
  cases h : E.U.fromLocale s with
  | none => exact ⟨by simp, h1 h⟩
  | some t =>
    rw [h2 t h]
    exact uniLocP_out E (h0 t h) out flags

theorem regP_out {E : Env} {D : Data} (W : World E D) {ul al : Option (List Nat)}
    (h : ul ≠ none ∨ al ≠ none) (out : Option Cell) (flags : Nat) : regP E ul al flags ≠ .ub ∧
      (idn2_register_u8 E ul al out flags : Out _) = retOf out (regP E ul al flags) := by
  cases al with
  | some a =>
    cases ul with
    | none => exact ⟨regAP_ne_ub W _ a, regA_out E _ a out⟩
    | some u => exact ⟨regAP_ne_ub W _ a, regA_out E _ a out⟩
  | none =>
    cases ul with
    | some u => exact ⟨regUP_ne_ub W u flags, regU_out E u out flags⟩
    | none => simp at h

theorem regUlP_out {E : Env} {D : Data} (W : World E D) {ul al : Option (List Nat)}
    (h : ul ≠ none ∨ al ≠ none) (out : Option Cell) (flags : Nat) : regUlP E ul al flags ≠ .ub ∧
      (idn2_register_ul E ul al out flags : Out _) = retOf out (regUlP E ul al flags) := by
  unfold regUlP
  cases ul with
  | none =>
    rw [(C45_locale_lookup E [] al out flags).2.2]
    exact regP_out W h out _
  | some s =>
    obtain ⟨h1, h2, _⟩ := C45_locale_lookup E s al out flags
    simp only
    cases hs : E.U.fromLocale s with
    | none => exact ⟨by simp, (h1 hs).2.2⟩
    | some t =>
      rw [(h2 t hs).2.2]
      exact regP_out W (Or.inl (by simp)) out _

/-- The closed form of a call. -/
theorem call_closed {E : Env} {D : Data} (W : World E D)
    {fh : Option Cell → HeapM (Option Rc × Option Cell)}
    {fo : Option Cell → Out (Option Rc × Option Cell)} (hc : Call E fh fo) :
    ∃ w : Res (List Nat), w ≠ .ub ∧ ∀ out, fo out = retOf out w ∧
      ∀ F L, Tri F (fh out) L (Ends F w out L) := by
  cases hc with
  | lookup_u8 h0 flags =>
    exact ⟨_, lookupF_ne_ub W flags h0, fun out => ⟨lookup_retOf W flags h0 out,
      fun F L => tri_lookup_u8 W.tables W.uni W.data flags h0 out⟩⟩
  | to_ascii_8z h0 flags =>
    exact ⟨_, lookupF_ne_ub W flags h0, fun out => ⟨lookup_retOf W flags h0 out,
      fun F L => tri_lookup_u8 W.tables W.uni W.data flags h0 out⟩⟩
  | lookup_ul h0 flags =>
    exact ⟨_, (ulP_out W flags h0 none).1, fun out => ⟨(ulP_out W flags h0 out).2,
      fun F L => tri_lookup_ul W flags h0 out⟩⟩
  | to_ascii_lz h0 flags =>
    exact ⟨_, (ulP_out W flags h0 none).1, fun out => ⟨(ulP_out W flags h0 out).2,
      fun F L => tri_lookup_ul W flags h0 out⟩⟩
  | to_ascii_4z h0 flags =>
    exact ⟨_, (arrP_out W flags _ none).1, fun out => ⟨(arrP_out W flags _ out).2.2 h0,
      fun F L => tri_4z W flags _ out⟩⟩
  | to_ascii_4i2 a flags =>
    exact ⟨_, (arrP_out W flags a none).1, fun out => ⟨(arrP_out W flags a out).2.1,
      fun F L => tri_4i2 W flags a out⟩⟩
  | to_unicode_8z4z h0 flags =>
    exact ⟨_, uniP_ne_ub _, fun out => ⟨to_unicode_8z4z_out _ out flags,
      fun F L => tri_8z4z _ out flags⟩⟩
  | to_unicode_4z4z h0 flags =>
    exact ⟨_, (uniArrP_out _ h0 none flags).1, fun out => ⟨(uniArrP_out _ h0 out flags).2,
      fun F L => tri_4z4z _ out flags⟩⟩
  | to_unicode_8z8z h0 flags =>
    exact ⟨_, (uni8P_out h0 none flags).1, fun out => ⟨(uni8P_out h0 out flags).2,
      fun F L => tri_8z8z h0 out flags⟩⟩
  | to_unicode_8zlz h0 flags =>
    exact ⟨_, (uniLocP_out E h0 none flags).1, fun out => ⟨(uniLocP_out E h0 out flags).2,
      fun F L => tri_8zlz E h0 out flags⟩⟩
  | to_unicode_lzlz h0 flags =>
    exact ⟨_, (uniLocLocP_out E h0 none flags).1, fun out => ⟨(uniLocLocP_out E h0 out flags).2,
      fun F L => tri_lzlz E h0 out flags⟩⟩
  | register_u8 h flags =>
    exact ⟨_, (regP_out W h none flags).1, fun out => ⟨(regP_out W h out flags).2,
      fun F L => tri_register_u8 W h out flags⟩⟩
  | register_ul h flags =>
    exact ⟨_, (regUlP_out W h none flags).1, fun out => ⟨(regUlP_out W h out flags).2,
      fun F L => tri_register_ul W h out flags⟩⟩

/-- Everything about one call. -/
theorem call_all {E : Env} {D : Data} (W : World E D)
    {fh : Option Cell → HeapM (Option Rc × Option Cell)}
    {fo : Option Cell → Out (Option Rc × Option Cell)} (hc : Call E fh fo) (out : Option Cell)
    {h : Heap} (hok : h.Ok) :
    ∃ rc o h', fh out h = .val ((rc, o), h') ∧ h'.Ok ∧ (rc ≠ none → o = out) ∧
      h'.live = owned rc o ++ h.live ∧
      ((rc = some .malloc ∧ Failed h h') ∨
        ∃ o', fo out = .val (rc, o') ∧ o.map forget = o'.map forget) := by
  obtain ⟨w, _, hw⟩ := call_closed W hc
  obtain ⟨h1, h2⟩ := hw out
  obtain ⟨r, h', F, e1, e2, e3, e4⟩ := tri_window (Q := fun F => Ends F w out h.live)
    (fun F => h2 F h.live) hok rfl
  rw [h1]
  rcases e3 with ⟨hk, rfl, hl⟩ | ⟨e, rfl, rfl, hl⟩ | ⟨n, rfl, rfl, rfl, hl⟩ | ⟨n, c, p, rfl, rfl, rfl, hl⟩
  · exact ⟨_, _, h', e1, e2, fun _ => rfl, hl, Or.inl ⟨rfl, e4 hk⟩⟩
  · exact ⟨_, _, h', e1, e2, fun _ => rfl, hl, Or.inr ⟨_, rfl, rfl⟩⟩
  · exact ⟨_, _, h', e1, e2, fun _ => rfl, hl, Or.inr ⟨_, rfl, rfl⟩⟩
  · exact ⟨_, _, h', e1, e2, fun hn => absurd rfl hn, hl, Or.inr ⟨_, rfl, rfl⟩⟩

/-! ### C38: a null output pointer -/

/-- C38.  With unlimited memory a call with a null output pointer returns the code that it
returns with another one; and no call has undefined behaviour. -/
theorem C38_null_output {E : Env} {D : Data} (W : World E D)
    {fh : Option Cell → HeapM (Option Rc × Option Cell)}
    {fo : Option Cell → Out (Option Rc × Option Cell)} (hc : Call E fh fo) (c : Cell) :
    ∃ rc o, fo none = .val (rc, none) ∧ fo (some c) = .val (rc, o) := by
  obtain ⟨w, hne, hw⟩ := call_closed W hc
  rw [(hw none).1, (hw (some c)).1]
  cases w with
  | ub => exact absurd rfl hne
  | err e => exact ⟨_, _, rfl, rfl⟩
  | ok n => exact ⟨_, _, rfl, rfl⟩

/-! ### C39: outputs after a failure -/

/-- C39.  When a call fails, the output parameter is what it was before, whichever
allocations fail. -/
theorem C39_untouched {E : Env} {D : Data} (W : World E D)
    {fh : Option Cell → HeapM (Option Rc × Option Cell)}
    {fo : Option Cell → Out (Option Rc × Option Cell)} (hc : Call E fh fo) (out : Option Cell)
    {h : Heap} (hok : h.Ok) :
    ∃ rc o h', fh out h = .val ((rc, o), h') ∧ (rc ≠ none → o = out) := by
  obtain ⟨rc, o, h', h1, _, h2, _⟩ := call_all W hc out hok
  exact ⟨rc, o, h', h1, h2⟩

/-! ### C40: allocation failures -/

/-- C40.  Whichever allocations fail, a call returns what it returns with unlimited memory,
or it returns IDN2_MALLOC and one of its allocations has failed. -/
theorem C40_malloc {E : Env} {D : Data} (W : World E D)
    {fh : Option Cell → HeapM (Option Rc × Option Cell)}
    {fo : Option Cell → Out (Option Rc × Option Cell)} (hc : Call E fh fo) (out : Option Cell)
    {h : Heap} (hok : h.Ok) :
    ∃ rc o h', fh out h = .val ((rc, o), h') ∧ ((rc = some .malloc ∧ Failed h h') ∨
      ∃ o', fo out = .val (rc, o') ∧ o.map forget = o'.map forget) := by
  obtain ⟨rc, o, h', h1, _, _, _, h2⟩ := call_all W hc out hok
  exact ⟨rc, o, h', h1, h2⟩

/-! ### C41: leaks, double frees, accesses to freed blocks -/

/-- C41.  Whichever allocations fail, a call frees or uses only blocks that are allocated (else
its outcome would be undefined behaviour), and at its end the allocated blocks are those of
the beginning and, if the call has stored a result, the block of that result, which is new. -/
theorem C41_no_leak {E : Env} {D : Data} (W : World E D)
    {fh : Option Cell → HeapM (Option Rc × Option Cell)}
    {fo : Option Cell → Out (Option Rc × Option Cell)} (hc : Call E fh fo) (out : Option Cell)
    {h : Heap} (hok : h.Ok) :
    ∃ rc o h', fh out h = .val ((rc, o), h') ∧ h'.Ok ∧ h'.live = owned rc o ++ h.live := by
  obtain ⟨rc, o, h', h1, h2, _, h3, _⟩ := call_all W hc out hok
  exact ⟨rc, o, h', h1, h2, h3⟩

/-! ### The functions that fill an array of the caller -/

/-- C38-C41 for `idn2_to_ascii_4i` with a null output or an array of at least 63 bytes. -/
theorem C41_4i {E : Env} {D : Data} (W : World E D) (a : List Nat) (flags : Nat)
    {out : Option (List Nat)} (hout : ∀ buf, out = some buf → 63 ≤ buf.length)
    {h : Heap} (hok : h.Ok) :
    ∃ rc o h', (idn2_to_ascii_4i E (some a) out flags : HeapM _) h = .val ((rc, o), h') ∧ h'.Ok ∧
      h'.live = h.live ∧ (rc ≠ none → o = out) ∧
      ((rc = some .malloc ∧ Failed h h') ∨
        (idn2_to_ascii_4i E (some a) out flags : Out _) = .val (rc, o) ∧
        ∃ o', (idn2_to_ascii_4i E (some a) none flags : Out _) = .val (rc, o')) := by
  obtain ⟨r, h', F, e1, e2, e3, e4⟩ := tri_window (fun F => tri_4i W flags a hout) hok rfl
  have hval : ∀ out : Option (List Nat), (∀ buf, out = some buf → 63 ≤ buf.length) →
      (∀ e, arr63P E D flags a = .err e → (idn2_to_ascii_4i E (some a) out flags : Out _) =
        .val (some e, out)) ∧
      (∀ n, arr63P E D flags a = .ok n → (idn2_to_ascii_4i E (some a) out flags : Out _) =
        .val (none, stored out n)) := by
    intro out hout
    unfold idn2_to_ascii_4i arr63P
    simp only [(arrP_out W flags a (some (.old 0))).2.1]
    cases arrP E D flags a with
    | ub => simp
    | err e => simp [retOf]
    | ok n =>
      simp only [Res.bind_ok, retOf, Option.map_some, Out.bind_val, Out.touch_eq, Out.free_eq]
      by_cases hl : n.length > 63
      · simp [hl]
      · simp only [hl, ↓reduceIte, reduceCtorEq, false_implies, implies_true, true_and]
        rintro _ h
        injection h with h
        subst h
        cases out with
        | none => rfl
        | some buf =>
          have := hout buf rfl
          simp only [blit, if_pos (show n.length ≤ buf.length by omega)]
          rfl
  obtain ⟨hv1, hv2⟩ := hval out hout
  obtain ⟨hn1, hn2⟩ := hval none (by simp)
  obtain ⟨hl, ⟨hk, rfl⟩ | ⟨e, he, rfl⟩ | ⟨n, he, rfl⟩⟩ := e3
  · exact ⟨_, _, h', e1, e2, hl, fun _ => rfl, Or.inl ⟨rfl, e4 hk⟩⟩
  · exact ⟨_, _, h', e1, e2, hl, fun _ => rfl, Or.inr ⟨hv1 e he, _, hn1 e he⟩⟩
  · exact ⟨_, _, h', e1, e2, hl, fun hn => absurd rfl hn, Or.inr ⟨hv2 n he, _, hn2 n he⟩⟩

/-- C38-C41 for `idn2_to_unicode_44i` with an array of at least `*outlen` elements, or a null
output. -/
theorem C41_44i (a : List Nat) (flags : Nat) {out : Option (List Nat)} {outlen : Option Nat}
    (hout : ∀ buf n, out = some buf → outlen = some n → n ≤ buf.length)
    {h : Heap} (hok : h.Ok) :
    ∃ rc o h', (idn2_to_unicode_44i (some a) out outlen flags : HeapM _) h = .val ((rc, o), h') ∧
      h'.Ok ∧ h'.live = h.live ∧ (rc ≠ none → o = (out, outlen)) ∧
      ((rc = some .malloc ∧ Failed h h') ∨
        (idn2_to_unicode_44i (some a) out outlen flags : Out _) = .val (rc, o) ∧
        ∃ o', (idn2_to_unicode_44i (some a) none none flags : Out _) = .val (rc, o')) := by
  obtain ⟨r, h', F, e1, e2, e3, e4⟩ := tri_window (fun F => tri_44i a flags hout) hok rfl
  have hval : ∀ {out : Option (List Nat)} {outlen : Option Nat},
      (∀ buf n, out = some buf → outlen = some n → n ≤ buf.length) →
      (∀ e, uniArrP (a.takeWhile (· != 0)) = .err e →
        (idn2_to_unicode_44i (some a) out outlen flags : Out _) = .val (some e, out, outlen)) ∧
      (∀ u, uniArrP (a.takeWhile (· != 0)) = .ok u →
        (idn2_to_unicode_44i (some a) out outlen flags : Out _) = .val (stored44 out outlen u)) := by
    intro out outlen hout
    unfold idn2_to_unicode_44i
    simp only [Out.malloc_eq, Out.bind_val, Out.touch_eq, cstr_takeWhile, Out.free_eq,
      (uniArrP_out _ (mem_takeWhile_ne a) (some (.old 0)) flags).2]
    cases hu : uniArrP (a.takeWhile (· != 0)) with
    | ub => simp
    | err e => simp [retOf]
    | ok u =>
      simp only [retOf, Option.map_some, Out.bind_val, reduceCtorEq, false_implies, implies_true,
        true_and, takeWhile_all (uniArrP_nozero hu)]
      rintro _ h
      injection h with h
      subst h
      cases out with
      | none => rfl
      | some buf =>
        cases outlen with
        | none => rfl
        | some n =>
          have := hout buf n rfl rfl
          simp only [blit, List.length_take, if_pos (show min n u.length ≤ buf.length by omega)]
          rfl
  obtain ⟨hv1, hv2⟩ := hval hout
  obtain ⟨hn1, hn2⟩ := hval (out := none) (outlen := none) (by simp)
  obtain ⟨hl, ⟨hk, rfl⟩ | ⟨e, he, rfl⟩ | ⟨n, he, rfl⟩⟩ := e3
  · exact ⟨_, _, h', e1, e2, hl, fun _ => rfl, Or.inl ⟨rfl, e4 hk⟩⟩
  · exact ⟨_, _, h', e1, e2, hl, fun _ => rfl, Or.inr ⟨hv1 e he, _, hn1 e he⟩⟩
  · have hs : (stored44 out outlen n).1 = none := by
      unfold stored44; split <;> rfl
    refine ⟨(stored44 out outlen n).1, (stored44 out outlen n).2, h', e1, e2, hl,
      fun hn => absurd hs hn, Or.inr ⟨hv2 n he, (none, none), ?_⟩⟩
    rw [hn2 n he, hs]
    rfl

/-! ### Concrete runs -/

/-- A heap with one block of the caller in which the allocation number `k` fails. -/
def failing (k : Nat) : Heap := ⟨[0], 1, fun i => i == k⟩

example (k : Nat) : (failing k).Ok := ⟨by simp [failing], by simp [failing]⟩

/-- Code, output and live blocks after looking up "fä.de". -/
def faRun (k : Nat) : Option (Option Rc × Option Cell × List Nat) :=
  match (idn2_lookup_u8 Sample.E (some [0x66, 0xC3, 0xA4, 0x2E, 0x64, 0x65]) (some (.old 5)) 0 : HeapM _)
      (failing k) with
  | .val ((rc, o), h) => some (rc, o, h.live)
  | .ub => none

-- the call allocates nine times; any of these may fail
example : (∀ k ∈ List.range 9, faRun (k + 1) = some (some .malloc, some (.old 5), [0])) ∧
    faRun 100 = some (none, some (.buf 9 [0x78, 0x6E, 0x2D, 0x2D, 0x66, 0x2D, 0x30, 0x66, 0x61,
      0x2E, 0x64, 0x65]), [9, 0]) := by decide +kernel

end Idn2
