import Verif.Spec.Answer
import Verif.Props.Heap
import Verif.Props.LookupExact
import Verif.Props.RegisterExact
import Verif.Props.ToUnicode
import Verif.Props.Cli

/-
Property C70: every call ends with the one answer to the request, or with IDN2_MALLOC after a failed
allocation.
-/

namespace Idn2
open Spec

/-- An answer as an outcome of the closed forms. -/
def toRes : Ans → Res (List Nat)
  | .ok n => .ok n
  | .error e => .err e

theorem toRes_inj {r r' : Ans} (h : toRes r = toRes r') : r = r' := by
  cases r <;> cases r' <;> simp [toRes] at h <;> rw [h]

theorem toRes_total {w : Res (List Nat)} (h : w ≠ .ub) : ∃ r, w = toRes r := by
  cases w with
  | ub => exact absurd rfl h
  | ok n => exact ⟨.ok n, rfl⟩
  | err e => exact ⟨.error e, rfl⟩

/-! ### The closed forms are the answers -/

theorem lookupF_is {E : Env} {D : Data} (W : World E D) (flags : Nat) {s : List Nat} (h0 : 0 ∉ s)
    (r : Ans) : lookupF E D flags s = toRes r ↔ Lookup D E.U flags s r := by
  rw [← C64_lookup W flags h0]
  cases r with
  | ok n => exact (LookupOk_iff W h0).symm
  | error e => exact (LookupErr_iff W h0).symm

/-- The closed form of a conversion that comes first. -/
def afterConv (conv : Option (List Nat)) (e : Rc) (f : List Nat → Res (List Nat)) :
    Res (List Nat) :=
  match conv with
  | none => .err e
  | some t => f t

theorem after_is {conv : Option (List Nat)} {e : Rc} {f : List Nat → Res (List Nat)}
    {next : List Nat → Ans → Prop} (h : ∀ t, conv = some t → ∀ r, f t = toRes r ↔ next t r)
    (r : Ans) : afterConv conv e f = toRes r ↔
      After conv e next r := by
  unfold afterConv
  cases conv with
  | none =>
    constructor
    · intro hr
      have : r = .error e := toRes_inj hr.symm
      subst this
      exact .fails rfl
    · intro hr
      cases hr with
      | fails => rfl
      | done t r h => cases h
  | some t =>
    rw [h t rfl]
    constructor
    · exact fun hr => .done t r rfl hr
    · intro hr
      cases hr with
      | fails h => cases h
      | done t' r h hr => cases h; exact hr

theorem inUtf8_is {a : List Nat} {f : List Nat → Res (List Nat)}
    {next : List Nat → Ans → Prop}
    (h : ∀ r, f (utf8s (a.takeWhile (· != 0))) = toRes r ↔ next (utf8s (a.takeWhile (· != 0))) r)
    (r : Ans) : (match u8Encode (a ++ [0]) with
      | none => .err .encodingError
      | some _ => f (utf8s (a.takeWhile (· != 0)))) = toRes r ↔ InUtf8 a next r := by
  by_cases hs : ∀ c ∈ a, isScalar c
  · rw [u8Encode_zero hs]
    simp only [h]
    constructor
    · exact fun hr => .done r hs hr
    · intro hr
      cases hr with
      | fails h => exact absurd hs h
      | done r _ hr => exact hr
  · rw [u8Encode_zero_none hs]
    constructor
    · intro hr
      have : r = .error .encodingError := toRes_inj hr.symm
      subst this
      exact .fails hs
    · intro hr
      cases hr with
      | fails => rfl
      | done r h => exact absurd h hs

theorem uniP_is (s : List Nat) (r : Ans) : uniP s = toRes r ↔ Shown s r := by
  cases r with
  | ok v =>
    rw [toRes, ← ToUniOk_iff, C49_to_unicode_spec]
    exact ⟨.ok v, fun h => by cases h; assumption⟩
  | error e =>
    rw [toRes, ← ToUniErr_iff, C49_first_error]
    exact ⟨.error e, fun h => by cases h; assumption⟩

theorem uni8P_is (s : List Nat) (r : Ans) : uni8P s = toRes r ↔ Shown8 s r := by
  have hi := uniP_is s
  unfold uni8P
  constructor
  · intro hr
    cases hu : uniP s with
    | ub => exact absurd hu (uniP_ne_ub s)
    | err e =>
      rw [hu] at hr
      have : r = .error e := toRes_inj hr.symm
      subst this
      cases (hi (.error e)).mp hu with
      | error e h => exact .error e h
    | ok u =>
      rw [hu] at hr
      cases (hi (.ok u)).mp hu with
      | ok u h =>
        simp only [Res.bind_ok] at hr
        by_cases hs : ∀ c ∈ u, isScalar c
        · rw [u8Encode_zero hs] at hr
          have : r = .ok (utf8s u) := toRes_inj hr.symm
          subst this
          exact .ok u h hs
        · rw [u8Encode_zero_none hs] at hr
          have : r = .error .encodingError := toRes_inj hr.symm
          subst this
          exact .surrogate u h hs
  · intro hr
    cases hr with
    | ok v h hs =>
      rw [(hi (.ok v)).mpr (.ok v h)]
      simp [toRes, u8Encode_zero hs]
    | surrogate v h hs =>
      rw [(hi (.ok v)).mpr (.ok v h)]
      simp [toRes, u8Encode_zero_none hs]
    | error e h =>
      rw [(hi (.error e)).mpr (.error e h)]
      rfl

theorem uniLocP_is (E : Env) {s : List Nat} (h0 : 0 ∉ s) (r : Ans) :
    uniLocP E s = toRes r ↔ ShownLocale E.U s r := by
  have hi := uni8P_is s
  unfold uniLocP
  constructor
  · intro hr
    cases hu : uni8P s with
    | ub => exact absurd hu (uni8P_out h0 none 0).1
    | err e =>
      rw [hu] at hr
      have : r = .error e := toRes_inj hr.symm
      subst this
      exact .error e ((hi (.error e)).mp hu)
    | ok u =>
      have h := (hi (.ok u)).mp hu
      rw [hu] at hr
      simp only [Res.bind_ok] at hr
      cases hl : E.U.toLocale u with
      | none =>
        rw [hl] at hr
        have : r = .error .encodingError := toRes_inj hr.symm
        subst this
        exact .locale u h hl
      | some n =>
        rw [hl] at hr
        have : r = .ok n := toRes_inj hr.symm
        subst this
        exact .ok u n h hl
  · intro hr
    cases hr with
    | ok u n h hl =>
      rw [(hi (.ok u)).mpr h]
      simp [toRes, hl]
    | locale u h hl =>
      rw [(hi (.ok u)).mpr h]
      simp [toRes, hl]
    | error e h =>
      rw [(hi (.error e)).mpr h]
      rfl

theorem regP_is {E : Env} {D : Data} (W : World E D) {ul al : Option (List Nat)}
    (h : ul ≠ none ∨ al ≠ none) (flags : Nat) (r : Ans) :
    regP E ul al flags = toRes r ↔ Registered D E.U flags ul al r := by
  have ho : ∀ r : Ans, regP E ul al flags = toRes r ↔ RegIs E flags ul al r := by
    have ho := (regP_out W h (some (.old 0)) flags).2
    intro r
    cases r with
    | ok n =>
      simp only [RegIs, RegOk, ho]
      cases regP E ul al flags <;> simp [retOf, toRes]
    | error e =>
      simp only [RegIs, RegErr, ho]
      cases regP E ul al flags <;> simp [retOf, toRes]
  rw [ho]
  cases al with
  | some a => exact C66_register_alabel W flags ul a r
  | none =>
    cases ul with
    | none => simp at h
    | some t =>
      rw [C65_register_ulabel W flags t r]
      exact ⟨fun h => ⟨t, rfl, h⟩, fun ⟨t', e, h⟩ => by cases e; exact h⟩

/-- The closed form of a call. -/
def Request.closed (E : Env) (D : Data) : Request → Res (List Nat)
  | .lookup_u8 s f => lookupF E D f s
  | .lookup_ul s f => ulP E D f s
  | .to_ascii_8z s f => lookupF E D f s
  | .to_ascii_lz s f => ulP E D f s
  | .to_ascii_4z a f => arrP E D f a
  | .to_ascii_4i2 a f => arrP E D f a
  | .to_unicode_8z4z s _ => uniP s
  | .to_unicode_4z4z a _ => uniArrP a
  | .to_unicode_8z8z s _ => uni8P s
  | .to_unicode_8zlz s _ => uniLocP E s
  | .to_unicode_lzlz s _ => uniLocLocP E s
  | .register_u8 ul al f => regP E ul al f
  | .register_ul ul al f => regUlP E ul al f

theorem Request.tri {E : Env} {D : Data} (W : World E D) (U : E.U.Locale) {q : Request}
    (hv : q.Valid) (out : Option Cell) (F : Nat → Bool) (L : List Nat) :
    Tri F (q.run E out : HeapM _) L (Ends F (q.closed E D) out L) := by
  have hl : ∀ s t, E.U.fromLocale s = some t → 0 ∉ t := fun s t h => (U.from_ok s t h).2
  cases q with
  | lookup_u8 s f => exact tri_lookup_u8 W.tables W.uni W.data f hv out
  | lookup_ul s f => exact tri_lookup_ul W f (hl s) out
  | to_ascii_8z s f => exact tri_lookup_u8 W.tables W.uni W.data f hv out
  | to_ascii_lz s f => exact tri_lookup_ul W f (hl s) out
  | to_ascii_4z a f => exact tri_4z W f a out
  | to_ascii_4i2 a f => exact tri_4i2 W f a out
  | to_unicode_8z4z s f => exact tri_8z4z s out f
  | to_unicode_4z4z a f => exact tri_4z4z a out f
  | to_unicode_8z8z s f => exact tri_8z8z hv out f
  | to_unicode_8zlz s f => exact tri_8zlz E hv out f
  | to_unicode_lzlz s f => exact tri_lzlz E (hl s) out f
  | register_u8 ul al f => exact tri_register_u8 W hv.1 out f
  | register_ul ul al f => exact tri_register_ul W hv.1 out f

theorem Request.closed_is {E : Env} {D : Data} (W : World E D) (U : E.U.Locale) {q : Request}
    (hv : q.Valid) (r : Ans) : q.closed E D = toRes r ↔ Answer D E.U q r := by
  have hl : ∀ s t, E.U.fromLocale s = some t → 0 ∉ t := fun s t h => (U.from_ok s t h).2
  have hz : ∀ a : List Nat, 0 ∉ utf8s (a.takeWhile (· != 0)) := fun a =>
    zero_mem_utf8s (mem_takeWhile_ne a)
  cases q with
  | lookup_u8 s f => exact lookupF_is W f hv r
  | lookup_ul s f => exact after_is (f := lookupF E D (f ||| 1)) (fun t ht r => lookupF_is W _ (hl s t ht) r) r
  | to_ascii_8z s f => exact lookupF_is W f hv r
  | to_ascii_lz s f => exact after_is (f := lookupF E D (f ||| 1)) (fun t ht r => lookupF_is W _ (hl s t ht) r) r
  | to_ascii_4z a f => exact inUtf8_is (f := lookupF E D f) (lookupF_is W f (hz a)) r
  | to_ascii_4i2 a f => exact inUtf8_is (f := lookupF E D f) (lookupF_is W f (hz a)) r
  | to_unicode_8z4z s f => exact uniP_is s r
  | to_unicode_4z4z a f => exact inUtf8_is (f := uniP) (uniP_is _) r
  | to_unicode_8z8z s f => exact uni8P_is s r
  | to_unicode_8zlz s f => exact uniLocP_is E hv r
  | to_unicode_lzlz s f => exact after_is (f := uniLocP E) (fun t ht r => uniLocP_is E (hl s t ht) r) r
  | register_u8 ul al f => exact regP_is W hv.1 f r
  | register_ul ul al f =>
    cases ul with
    | none => exact regP_is W hv.1 _ r
    | some s => exact after_is (f := fun t => regP E (some t) al (f ||| 1)) (fun t _ r => regP_is W (Or.inl (Option.some_ne_none t)) _ r) r

theorem Request.closed_ne_ub {E : Env} {D : Data} (W : World E D) (U : E.U.Locale) {q : Request}
    (hv : q.Valid) : q.closed E D ≠ .ub := by
  have hl : ∀ s t, E.U.fromLocale s = some t → 0 ∉ t := fun s t h => (U.from_ok s t h).2
  cases q with
  | lookup_u8 s f => exact lookupF_ne_ub W f hv
  | lookup_ul s f => exact (ulP_out W f (hl s) none).1
  | to_ascii_8z s f => exact lookupF_ne_ub W f hv
  | to_ascii_lz s f => exact (ulP_out W f (hl s) none).1
  | to_ascii_4z a f => exact (arrP_out W f a none).1
  | to_ascii_4i2 a f => exact (arrP_out W f a none).1
  | to_unicode_8z4z s f => exact uniP_ne_ub s
  | to_unicode_4z4z a f => exact (uniArrP_out a hv none f).1
  | to_unicode_8z8z s f => exact (uni8P_out hv none f).1
  | to_unicode_8zlz s f => exact (uniLocP_out E hv none f).1
  | to_unicode_lzlz s f => exact (uniLocLocP_out E (hl s) none f).1
  | register_u8 ul al f => exact (regP_out W hv.1 none f).1
  | register_ul ul al f => exact (regUlP_out W hv.1 none f).1

/-! ### IDN2_MALLOC is not an answer -/

theorem faultAt_codes {D : Data} {U : Uni} {what : Nat} {l : List Nat} {e : Rc}
    (h : FirstFault D U what l e) : e ≠ .malloc := by
  obtain ⟨k, pos, h, _⟩ := h
  cases h <;> simp

theorem reads_codes {bias i : Nat} {ds : List Nat} {e : Rc}
    (h : Punycode.Reads bias i ds (.error e)) : e ≠ .malloc := by
  cases h <;> simp

theorem runs_codes {cap b : Nat} {s : Punycode.St} {o ds : List Nat} {y : Ans}
    (h : Punycode.Runs cap b s o ds y) : y ≠ .error .malloc := by
  induction h with
  | done => simp
  | number s o ds e _ h => simpa using reads_codes h
  | large => simp
  | bad => simp
  | full => simp
  | step s o ds r v x y _ _ _ _ _ _ ih => exact ih

theorem decoding_codes {cap : Nat} {t : List Nat} {e : Rc}
    (h : Punycode.Decoding cap t (.error e)) : e ≠ .malloc := by
  cases h with
  | delimited bs ds _ _ _ _ _ _ _ h => simpa using runs_codes h
  | plain _ _ _ _ h => simpa using runs_codes h
  | _ => simp

theorem tooLong_codes {v : List Nat} {e : Rc} (h : TooLong v e) : e ≠ .malloc := by
  rw [h.2]; split <;> simp

theorem undecodable_codes {l : List Nat} {e : Rc} (h : Undecodable l e) : e ≠ .malloc := by
  obtain ⟨t, _, h⟩ := h
  exact decoding_codes h

theorem labelErr_codes {D : Data} {U : Uni} {flags : Nat} {l : List Nat} {e : Rc}
    (h : LabelErr D U flags l e) : e ≠ .malloc := by
  cases h with
  | undecodable _ _ h => exact undecodable_codes (by assumption)
  | alabelFault => exact faultAt_codes (by assumption)
  | ulabelFault => exact faultAt_codes (by assumption)
  | ulabelLong => exact tooLong_codes (by assumption)
  | _ => simp

theorem labelErrNfc_codes {D : Data} {U : Uni} {flags : Nat} {l : List Nat} {e : Rc}
    (h : LabelErrNfc D U flags l e) : e ≠ .malloc := by
  cases h with
  | undecodable _ _ h => exact undecodable_codes (by assumption)
  | alabelFault => exact faultAt_codes (by assumption)
  | ulabelFault => exact faultAt_codes (by assumption)
  | alabelLong => exact tooLong_codes (by assumption)
  | ulabelLong => exact tooLong_codes (by assumption)
  | _ => simp

theorem firstErr_codes {ok : List Nat → List Nat → Prop} {err : List Nat → Rc → Prop}
    {ls : List (List Nat)} {e : Rc} (he : ∀ l e, err l e → e ≠ .malloc)
    (h : FirstErr ok err ls e) : e ≠ .malloc := by
  obtain ⟨_, l, _, _, _, _, _, h | ⟨_, _, h, _⟩⟩ := h.ex
  · exact he l e h
  · rw [h]; simp

theorem toAsciiErr_codes {D : Data} {U : Uni} {flags : Nat} {u : List Nat} {e : Rc}
    (h : ToAsciiErr D U flags u e) : e ≠ .malloc := by
  rcases h with ⟨_, h⟩ | ⟨x, _, h⟩
  · cases h with
    | labels x e _ _ _ h =>
      cases h with
      | stop _ _ _ _ _ h => exact undecodable_codes h
      | last _ _ _ _ _ h =>
        cases h with
        | alabel => exact faultAt_codes (by assumption)
        | ulabel => exact faultAt_codes (by assumption)
    | _ => simp
  · exact firstErr_codes (fun _ _ => labelErr_codes) h

theorem lookup_codes {D : Data} {U : Uni} {flags : Nat} {s : List Nat} {e : Rc}
    (h : Lookup D U flags s (.error e)) : e ≠ .malloc := by
  cases h with
  | error u e _ _ _ _ h => exact toAsciiErr_codes h
  | label e _ _ h =>
    refine firstErr_codes ?_ h
    rintro l e (⟨_, rfl⟩ | ⟨u, _, _, h⟩)
    · simp
    · split at h
      · exact labelErrNfc_codes h
      · exact labelErr_codes h
  | _ => simp

theorem toUnicodeErr_codes {s : List Nat} {e : Rc} (h : ToUnicodeErr s e) : e ≠ .malloc := by
  obtain ⟨_, l, _, _, _, _, _, h | ⟨h, _⟩⟩ := h
  · cases h with
    | alabel _ h => exact decoding_codes h
    | plain _ h => cases h <;> simp
  · rw [h]; simp

theorem shown8_codes {s : List Nat} {e : Rc} (h : Shown8 s (.error e)) : e ≠ .malloc := by
  cases h with
  | surrogate => simp
  | error e h => exact toUnicodeErr_codes h

theorem shownLocale_codes {U : Uni} {s : List Nat} {e : Rc} (h : ShownLocale U s (.error e)) :
    e ≠ .malloc := by
  cases h with
  | locale => simp
  | error e h => exact shown8_codes h

theorem shown_codes {s : List Nat} {e : Rc} (h : Shown s (.error e)) : e ≠ .malloc := by
  cases h with
  | error e h => exact toUnicodeErr_codes h

theorem registered_codes {D : Data} {U : Uni} {flags : Nat} {ul al : Option (List Nat)} {e : Rc}
    (h : Registered D U flags ul al (.error e)) : e ≠ .malloc := by
  cases al with
  | some a =>
    cases h with
    | undecodable => exact decoding_codes (by assumption)
    | fault => exact faultAt_codes (by assumption)
    | _ => simp
  | none =>
    obtain ⟨t, _, h⟩ := h
    cases h with
    | fault => exact faultAt_codes (by assumption)
    | tooLong => exact tooLong_codes (by assumption)
    | _ => simp

theorem after_codes {conv : Option (List Nat)} {e0 e : Rc} {next : List Nat → Ans → Prop}
    (he : e0 ≠ .malloc) (hn : ∀ t e, next t (.error e) → e ≠ .malloc)
    (h : After conv e0 next (.error e)) : e ≠ .malloc := by
  cases h with
  | fails => exact he
  | done t r _ h => exact hn t e h

theorem inUtf8_codes {a : List Nat} {e : Rc} {next : List Nat → Ans → Prop}
    (hn : ∀ t e, next t (.error e) → e ≠ .malloc)
    (h : InUtf8 a next (.error e)) : e ≠ .malloc := by
  cases h with
  | fails => simp
  | done r _ h => exact hn _ e h

/-- The answer to a request is never that memory is short. -/
theorem answer_codes {D : Data} {U : Uni} {q : Request} {e : Rc} (h : Answer D U q (.error e)) :
    e ≠ .malloc := by
  cases q with
  | lookup_u8 s f => exact lookup_codes h
  | lookup_ul s f => exact after_codes (by simp) (fun _ _ => lookup_codes) h
  | to_ascii_8z s f => exact lookup_codes h
  | to_ascii_lz s f => exact after_codes (by simp) (fun _ _ => lookup_codes) h
  | to_ascii_4z a f => exact inUtf8_codes (fun _ _ => lookup_codes) h
  | to_ascii_4i2 a f => exact inUtf8_codes (fun _ _ => lookup_codes) h
  | to_unicode_8z4z s f => exact shown_codes h
  | to_unicode_4z4z a f => exact inUtf8_codes (fun _ _ => shown_codes) h
  | to_unicode_8z8z s f => exact shown8_codes h
  | to_unicode_8zlz s f => exact shownLocale_codes h
  | to_unicode_lzlz s f => exact after_codes (by simp) (fun _ _ => shownLocale_codes) h
  | register_u8 ul al f => exact registered_codes h
  | register_ul ul al f =>
    cases ul with
    | none => exact registered_codes (flags := f ||| 1) h
    | some s => exact after_codes (by simp) (fun _ _ => registered_codes) h

/-! ### C70 -/

/-- C70.  A request has exactly one answer, which is never IDN2_MALLOC. -/
theorem C70_unique {E : Env} {D : Data} (W : World E D) (U : E.U.Locale) {q : Request}
    (hv : q.Valid) :
    ∃ r, Answer D E.U q r ∧ r ≠ .error .malloc ∧ ∀ r', Answer D E.U q r' → r' = r := by
  obtain ⟨r, hr⟩ := toRes_total (q.closed_ne_ub W U hv)
  refine ⟨r, (q.closed_is W U hv r).mp hr, ?_, fun r' h' => ?_⟩
  · rintro rfl
    exact answer_codes ((q.closed_is W U hv _).mp hr) rfl
  · rw [← q.closed_is W U hv, hr] at h'
    exact (toRes_inj h').symm

/-- C70.  Every call, whichever allocations fail, gives the answer to the request and stores it in a
new block if it is a result, or it returns IDN2_MALLOC and an allocation has failed.  It has no
undefined behaviour and no other effect on the heap and the output parameter. -/
theorem C70_answer {E : Env} {D : Data} (W : World E D) (U : E.U.Locale) {q : Request}
    (hv : q.Valid) (out : Option Cell) {h : Heap} (hok : h.Ok) :
    ∃ rc o h', (q.run E out : HeapM _) h = .val ((rc, o), h') ∧ h'.Ok ∧
      ((Failed h h' ∧ Ended out h h' (.error .malloc) rc o) ∨
        ∃ r, Answer D E.U q r ∧ Ended out h h' r rc o) := by
  obtain ⟨r, h', F, e1, e2, e3, e4⟩ := tri_window (Q := fun F => Ends F (q.closed E D) out h.live)
    (fun F => q.tri W U hv out F h.live) hok rfl
  rcases e3 with ⟨hk, rfl, hl⟩ | ⟨e, he, rfl, hl⟩ | ⟨n, he, rfl, rfl, hl⟩ | ⟨n, c, p, he, rfl, rfl, hl⟩
  · exact ⟨_, _, h', e1, e2, Or.inl ⟨e4 hk, .error _ hl⟩⟩
  · exact ⟨_, _, h', e1, e2, Or.inr ⟨.error e, (q.closed_is W U hv _).mp he, .error e hl⟩⟩
  · exact ⟨_, _, h', e1, e2, Or.inr ⟨.ok n, (q.closed_is W U hv _).mp he, .noOutput n rfl hl⟩⟩
  · refine ⟨_, _, h', e1, e2, Or.inr ⟨.ok n, (q.closed_is W U hv _).mp he,
      .stored n p (by simp) ?_ hl⟩⟩
    have := e2.nodup
    rw [hl] at this
    exact (List.nodup_cons.mp this).1

/-- C70.  If no allocation fails, a call gives the answer. -/
theorem C70_no_failure {E : Env} {D : Data} (W : World E D) (U : E.U.Locale) {q : Request}
    (hv : q.Valid) (out : Option Cell) {h : Heap} (hok : h.Ok) (hf : ∀ k, h.fails k = false)
    {r : Ans} (hr : Answer D E.U q r) :
    ∃ rc o h', (q.run E out : HeapM _) h = .val ((rc, o), h') ∧ h'.Ok ∧ Ended out h h' r rc o := by
  obtain ⟨rc, o, h', h1, h2, ⟨⟨k, _, _, hk⟩, _⟩ | ⟨r', h3, h4⟩⟩ := C70_answer W U hv out hok
  · rw [hf] at hk; cases hk
  · obtain ⟨r0, _, _, hu⟩ := C70_unique W U hv
    rw [hu r' h3, ← hu r hr] at h4
    exact ⟨rc, o, h', h1, h2, h4⟩

/-! ### Results are C strings -/

theorem encode_zero {u : List Nat} (h : 0 ∉ u) : 0 ∉ xn ++ Punycode.encode u := by
  intro hz
  rcases List.mem_append.mp hz with hz | hz
  · revert hz; decide
  · rcases encode_mem hz with ⟨hz, _⟩ | hz
    · exact h hz
    · revert hz; unfold isLowerLDH; omega

theorem lookup_string {E : Env} {D : Data} (W : World E D) {flags : Nat} {s n : List Nat}
    (h0 : 0 ∉ s) (h : Lookup D E.U flags s (.ok n)) : 0 ∉ n := by
  intro hz
  have := C08_lookup_ascii W h0 ((C64_lookup W flags h0 (.ok n)).mpr h) 0 hz
  omega

theorem shown_string {s v : List Nat} (h0 : 0 ∉ s) (h : Shown s (.ok v)) : 0 ∉ v :=
  uniP_nozero h0 ((uniP_is s (.ok v)).mpr h)

theorem shown8_string {s n : List Nat} (h0 : 0 ∉ s) (h : Shown8 s (.ok n)) : 0 ∉ n := by
  cases h with
  | ok v h hs => exact zero_mem_utf8s (shown_string h0 (.ok v h))

theorem registered_string {E : Env} {D : Data} (W : World E D) {flags : Nat}
    {ul al : Option (List Nat)} {n : List Nat} (hz : ∀ s, ul = some s ∨ al = some s → 0 ∉ s)
    (h : Registered D E.U flags ul al (.ok n)) : 0 ∉ n := by
  cases al with
  | some a =>
    cases h with
    | alabel => exact hz n (Or.inr rfl)
  | none =>
    obtain ⟨t, rfl, h⟩ := h
    have h0 := hz t (Or.inl rfl)
    cases h with
    | ascii => exact h0
    | ulabel q u hq _ ht hn =>
      refine encode_zero ?_
      have hq0 : 0 ∉ q := fun hz => h0 (ht ▸ (utf8s_zero_iff hq).mpr hz)
      unfold NormIf at hn
      split at hn
      · rcases hn with ⟨_, rfl⟩ | ⟨_, hn⟩
        · exact hq0
        · exact W.uni.nfc_nosep q u 0 (Or.inl rfl) hq0 hn
      · rw [hn]; exact hq0

/-- C70.  A result contains no zero: the string that is stored ends where the result ends. -/
theorem C70_string {E : Env} {D : Data} (W : World E D) (U : E.U.Locale) {q : Request}
    (hv : q.Valid) {n : List Nat} (h : Answer D E.U q (.ok n)) : 0 ∉ n := by
  have hl : ∀ s t, E.U.fromLocale s = some t → 0 ∉ t := fun s t h => (U.from_ok s t h).2
  have hz : ∀ a : List Nat, 0 ∉ utf8s (a.takeWhile (· != 0)) := fun a =>
    zero_mem_utf8s (mem_takeWhile_ne a)
  have hsl : ∀ {s n}, ShownLocale E.U s (.ok n) → 0 ∉ n := by
    intro s n h
    cases h with
    | ok u n _ h => exact U.to_ok u n h
  have hlk : ∀ {s f}, After (E.U.fromLocale s) .iconvFail (Lookup D E.U f) (.ok n) → 0 ∉ n := by
    intro s f h
    cases h with
    | done t _ ht h => exact lookup_string W (hl s t ht) h
  have hin : ∀ {a f}, InUtf8 a (Lookup D E.U f) (.ok n) → 0 ∉ n := by
    intro a f h
    cases h with
    | done _ _ h => exact lookup_string W (hz a) h
  cases q with
  | lookup_u8 s f => exact lookup_string W hv h
  | lookup_ul s f => exact hlk h
  | to_ascii_8z s f => exact lookup_string W hv h
  | to_ascii_lz s f => exact hlk h
  | to_ascii_4z a f => exact hin h
  | to_ascii_4i2 a f => exact hin h
  | to_unicode_8z4z s f => exact shown_string hv h
  | to_unicode_4z4z a f =>
    cases h with
    | done _ _ h => exact shown_string (hz a) h
  | to_unicode_8z8z s f => exact shown8_string hv h
  | to_unicode_8zlz s f => exact hsl h
  | to_unicode_lzlz s f =>
    cases h with
    | done t _ ht h => exact hsl h
  | register_u8 ul al f => exact registered_string W hv.2 h
  | register_ul ul al f =>
    cases ul with
    | none => exact registered_string (flags := f ||| 1) W hv.2 h
    | some s =>
      cases h with
      | done t _ ht h =>
        refine registered_string W ?_ h
        rintro s' (h | h)
        · cases h; exact hl s t ht
        · exact hv.2 s' (Or.inr h)

/-- "xn--f-0fa" through each of the functions to Unicode, and "fä" through some of those to ASCII;
a surrogate cannot be converted. -/
example :
    Answer Sample.D utf8Env.U (.to_unicode_8z4z [0x78, 0x6E, 0x2D, 0x2D, 0x66, 0x2D, 0x30, 0x66, 0x61] 0)
      (.ok [0x66, 0xE4]) ∧
    Answer Sample.D utf8Env.U (.to_unicode_8z8z [0x78, 0x6E, 0x2D, 0x2D, 0x66, 0x2D, 0x30, 0x66, 0x61] 0)
      (.ok [0x66, 0xC3, 0xA4]) ∧
    Answer Sample.D utf8Env.U (.to_ascii_4i2 [0x66, 0xE4, 0, 0x67] 0)
      (.ok [0x78, 0x6E, 0x2D, 0x2D, 0x66, 0x2D, 0x30, 0x66, 0x61]) ∧
    Answer Sample.D utf8Env.U (.to_ascii_4i2 [0x66, 0xE4, 0, 0xD800] 0) (.error .encodingError) ∧
    Answer Sample.D utf8Env.U (.register_u8 (some [0x66, 0xC3, 0xA4])
      (some [0x78, 0x6E, 0x2D, 0x2D, 0x66, 0x2D, 0x30, 0x66, 0x61]) 0)
      (.ok [0x78, 0x6E, 0x2D, 0x2D, 0x66, 0x2D, 0x30, 0x66, 0x61]) := by
  refine ⟨?_, ?_, ?_, ?_, ?_⟩ <;>
    refine (Request.closed_is utf8Env_world utf8Env_locale ?_ _).mp ?_ <;>
    first | exact trivial | (unfold Request.Valid; decide) | decide +kernel |
      exact ⟨by decide, by rintro s (h | h) <;> cases h <;> decide⟩

end Idn2
