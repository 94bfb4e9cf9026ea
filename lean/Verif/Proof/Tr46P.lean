import Verif.Proof.LookupP

/-
Closed form of `_tr46` and of `idn2_lookup_u8`.
-/

namespace Idn2
open Spec

/-! ### The two passes -/

theorem tr46Emit_eq {E : Env} {D : Data} (hI : Implements E.T D) (flags : Nat) {c : Nat}
    (hc : c ≤ 0x10FFFF) : tr46Emit E flags c =
      .ok (emit D (has flags IDN2_TRANSITIONAL) (has flags IDN2_USE_STD3_ASCII_RULES) c) := by
  obtain ⟨m, hm, h1, h2, h3, h4, h5, h6, h7, h8, h9⟩ := status_map_is hI hc
  unfold tr46Emit emit
  rw [hm, Res.bind_ok, h1, h2, h3, h4, h5, h6, h7, h9]
  simp only [Res.bind_ok]
  cases D.status c <;> simp <;> cases has flags IDN2_TRANSITIONAL <;>
    cases has flags IDN2_USE_STD3_ASCII_RULES <;> simp

theorem tr46Len_eq {E : Env} {D : Data} (hI : Implements E.T D) (flags : Nat) {c : Nat}
    (hc : c ≤ 0x10FFFF) (h0 : c ≠ 0) : tr46Len E flags c =
      if D.status c = .disallowed then .err .disallowed else
      .ok (emit D (has flags IDN2_TRANSITIONAL) (has flags IDN2_USE_STD3_ASCII_RULES) c).length := by
  obtain ⟨m, hm, h1, h2, h3, h4, h5, h6, h7, h8, h9⟩ := status_map_is hI hc
  unfold tr46Len emit
  rw [hm, Res.bind_ok, h1, h2, h3, h4, h5, h6, h7]
  simp only [Res.bind_ok]
  cases D.status c <;> simp [h0, h8] <;> cases has flags IDN2_TRANSITIONAL <;>
    cases has flags IDN2_USE_STD3_ASCII_RULES <;> simp

/-- The mapped text. -/
def mapText (D : Data) (flags : Nat) (u : List Nat) : List Nat :=
  u.flatMap (emit D (has flags IDN2_TRANSITIONAL) (has flags IDN2_USE_STD3_ASCII_RULES))

theorem tr46Pass1_eq {E : Env} {D : Data} (hI : Implements E.T D) (flags : Nat) {u : List Nat}
    (hu : ∀ c ∈ u, c ≤ 0x10FFFF) (h0 : 0 ∉ u) (n : Nat) : tr46Pass1 E flags u n =
      if ∃ c ∈ u, D.status c = .disallowed then .err .disallowed
      else .ok (n + (mapText D flags u).length) := by
  induction u generalizing n with
  | nil => simp [tr46Pass1, mapText]
  | cons c u ih =>
    rw [List.mem_cons, not_or] at h0
    rw [tr46Pass1, tr46Len_eq hI flags (hu c List.mem_cons_self) (fun h => h0.1 h.symm)]
    by_cases hd : D.status c = .disallowed
    · rw [if_pos hd, Res.bind_err, if_pos ⟨c, List.mem_cons_self, hd⟩]
    · rw [if_neg hd, Res.bind_ok, ih (fun x hx => hu x (List.mem_cons_of_mem _ hx)) h0.2]
      by_cases he : ∃ x ∈ u, D.status x = .disallowed
      · obtain ⟨x, hx, hxd⟩ := he
        rw [if_pos ⟨x, hx, hxd⟩, if_pos ⟨x, List.mem_cons_of_mem _ hx, hxd⟩]
      · rw [if_neg he, if_neg]
        · unfold mapText
          rw [List.flatMap_cons, List.length_append]; simp; omega
        · rintro ⟨x, hx, hxd⟩
          rw [List.mem_cons] at hx
          rcases hx with rfl | hx
          · exact hd hxd
          · exact he ⟨x, hx, hxd⟩

theorem tr46Pass2_eq {E : Env} {D : Data} (hI : Implements E.T D) (flags phys : Nat) {u : List Nat}
    (hu : ∀ c ∈ u, c ≤ 0x10FFFF) (tmp : List Nat)
    (hl : tmp.length + (mapText D flags u).length ≤ phys) :
    tr46Pass2 E flags phys u tmp = .ok (tmp ++ mapText D flags u) := by
  induction u generalizing tmp with
  | nil => simp [tr46Pass2, mapText]
  | cons c u ih =>
    rw [tr46Pass2, tr46Emit_eq hI flags (hu c List.mem_cons_self), Res.bind_ok]
    unfold mapText at hl ⊢
    rw [List.flatMap_cons, List.length_append] at hl
    rw [if_pos (by omega), ih (fun x hx => hu x (List.mem_cons_of_mem _ hx)), List.flatMap_cons]
    · unfold mapText; rw [List.append_assoc]
    · rw [List.length_append]; unfold mapText; omega

/-! ### The labels -/

/-- The verdict of the label test as `_tr46` records it. -/
def asOpt : Res Unit → Res (Option Rc)
  | .ok _ => .ok none
  | .err e => .ok (some e)
  | .ub => .ub

/-- The mask for labels that are not A-labels. -/
def tr46Mask (flags : Nat) : Nat :=
  addStd3 flags (if has flags IDN2_TRANSITIONAL then TR46_TRANSITIONAL_CHECK
    else TR46_NONTRANSITIONAL_CHECK)

/-- Checking one label in `_tr46`, without memory. -/
def tr46LabelP (E : Env) (flags : Nat) (lbl : List Nat) : Res (Option Rc) :=
  if lbl.length ≥ 4 ∧ lbl.take 4 = acePrefix then
    match u8Encode (lbl.drop 4) with
    | none => .err .encodingError
    | some ace => do
      let name ← punycode_decode 63 63 ace
      asOpt (labelTestP E (addStd3 flags TR46_NONTRANSITIONAL_CHECK) name)
  else asOpt (labelTestP E (tr46Mask flags) lbl)

theorem tr46Label_out (E : Env) (flags : Nat) (lbl : List Nat) :
    (tr46Label E flags lbl : Out _) = liftR (tr46LabelP E flags lbl) := by
  unfold tr46Label tr46LabelP
  split
  · cases u8Encode (lbl.drop 4) with
    | none => simp [libConv]
    | some ace =>
      simp only [libConv, Out.malloc_eq, Out.bind_val, Out.pure_eq, Out.touch_eq, Out.free_eq]
      cases punycode_decode 63 63 ace with
      | err e => simp
      | ub => simp
      | ok name =>
        simp only [Out.liftR_ok, Out.bind_val, Res.bind_ok, label_test_out]
        cases labelTestP E (addStd3 flags TR46_NONTRANSITIONAL_CHECK) name <;> rfl
  · simp only [label_test_out, tr46Mask]
    cases labelTestP E _ lbl <;> rfl

/-- The label loop of `_tr46` over the list of labels. -/
def tr46LabelsP (E : Env) (flags : Nat) : List (List Nat) → Option Rc → Res (Option Rc)
  | [], err => .ok err
  | l :: ls, err => do
    let rc ← tr46LabelP E flags l
    tr46LabelsP E flags ls (match rc with
      | some e => some e
      | none => err)

theorem no_fault_nil {D : Data} {U : Uni} (hU : U.Laws) (what : Nat) (e : Rc) :
    ¬ Fault D U what [] e := by
  have hn : U.nfc [] = some [] := hU.nfc_ascii [] (by simp)
  intro h
  cases h with
  | nfc _ h => rw [hn] at h; cases h
  | notNfc t _ h h' => rw [hn] at h; injection h with h; exact h' h.symm
  | twoHyphen _ h => simp at h
  | hyphenStartEnd _ h => simp at h
  | leadingCombining c _ h => simp at h
  | disallowed c _ h => cases h
  | contextjAny c _ h => cases h
  | contextj p c _ h => simp at h
  | contextjNoRule c _ h => cases h
  | contextoAny c _ h => cases h
  | contextoNoRule c _ h => cases h
  | contexto p c _ h => simp at h
  | unassigned c _ h => cases h
  | bidi _ h =>
    apply h
    rintro ⟨c, hc, _⟩
    cases hc
  | dotInLabel _ h => cases h
  | invalidTransitional c _ h => cases h
  | invalidNontransitional c _ _ h => cases h

theorem labelTestP_nil {E : Env} {D : Data} (hI : Implements E.T D) (hU : E.U.Laws) (what : Nat) :
    labelTestP E what [] = .ok () := by
  rcases blk_label_test hI what (label := []) (by simp) with ⟨h, _⟩ | ⟨e, _, h⟩
  · exact h
  · exact absurd h (no_fault_nil hU what e)

theorem tr46LabelP_nil {E : Env} {D : Data} (hI : Implements E.T D) (hU : E.U.Laws) (flags : Nat) :
    tr46LabelP E flags [] = .ok none := by
  unfold tr46LabelP
  rw [if_neg (by simp), labelTestP_nil hI hU]
  rfl

theorem takeWhile_isEnd {x : List Nat} (h0 : 0 ∉ x) :
    (x ++ [0]).takeWhile (fun c => !isEnd c) = x.takeWhile (· != 0x2E) ∧
    (x ++ [0]).dropWhile (fun c => !isEnd c) = x.dropWhile (· != 0x2E) ++ [0] := by
  induction x with
  | nil => simp [isEnd]
  | cons c x ih =>
    rw [List.mem_cons, not_or] at h0
    have ⟨i1, i2⟩ := ih h0.2
    have hc : (!isEnd c) = (c != 0x2E) := by
      unfold isEnd
      have : (c == 0) = false := by
        rw [beq_eq_false_iff_ne]; exact fun h => h0.1 h.symm
      rw [this]; rfl
    rw [List.cons_append, List.takeWhile_cons, List.dropWhile_cons, List.takeWhile_cons,
      List.dropWhile_cons, hc, i1, i2]
    split
    · exact ⟨rfl, rfl⟩
    · exact ⟨rfl, rfl⟩

theorem tr46Labels_out {E : Env} {D : Data} (hI : Implements E.T D) (hU : E.U.Laws)
    (flags dp : Nat) {x : List Nat} (h0 : 0 ∉ x) (err : Option Rc) :
    (tr46Labels E flags dp (x ++ [0]) err : Out _) = liftR (tr46LabelsP E flags (splitDot x) err) := by
  generalize hn : x.length = n
  induction n using Nat.strongRecOn generalizing x err with
  | _ n ih =>
    obtain ⟨ht, hd⟩ := takeWhile_isEnd h0
    rw [tr46Labels.eq_def, splitDot_eq]
    cases hx : x.dropWhile (· != 0x2E) with
    | nil =>
      split
      · rename_i h
        rw [hd, hx] at h; simp at h
      · rename_i c rest h
        rw [hd, hx] at h
        injection h with h1 h2
        subst h1
        simp only [Out.touch_eq, Out.bind_val, ht, tr46Label_out]
        cases x with
        | nil =>
          simp [tr46LabelsP, tr46LabelP_nil hI hU]
        | cons c x =>
          rw [List.mem_cons, not_or] at h0
          rw [if_neg]
          · simp only [tr46LabelsP]
            cases tr46LabelP E flags _ with
            | err e => simp
            | ub => simp
            | ok rc => cases rc <;> simp
          · simp only [List.cons_append, List.head?_cons, Option.some.injEq]
            exact fun h => h0.1 h.symm
    | cons c0 rest0 =>
      have hc0 : c0 = 0x2E := by
        have := List.head_dropWhile_not (p := (· != 0x2E)) (l := x) (by rw [hx]; simp)
        simp only [hx, List.head_cons] at this
        simpa using this
      have hmem : ∀ c ∈ rest0, c ∈ x := by
        intro c hc
        rw [← List.takeWhile_append_dropWhile (p := (· != 0x2E)) (l := x), hx]
        exact List.mem_append_right _ (List.mem_cons_of_mem _ hc)
      split
      · rename_i h
        rw [hd, hx] at h; simp at h
      · rename_i c rest h
        rw [hd, hx] at h
        injection h with h1 h2
        subst h1
        simp only [Out.touch_eq, Out.bind_val, ht, tr46Label_out]
        rw [if_neg]
        · simp only [tr46LabelsP]
          cases tr46LabelP E flags _ with
          | err e => simp
          | ub => simp
          | ok rc =>
            simp only [Out.liftR_ok, Out.bind_val, Res.bind_ok]
            rw [if_neg (by omega)]
            have := dropWhile_length_le (· != 0x2E) x
            rw [hx, List.length_cons] at this
            rw [← h2]
            exact ih rest0.length (by omega) (fun h => h0 (hmem 0 h)) _ rfl
        · cases x with
          | nil => simp at hx
          | cons c x =>
            rw [List.mem_cons, not_or] at h0
            simp only [List.cons_append, List.head?_cons, Option.some.injEq]
            exact fun h => h0.1 h.symm

/-! ### `_tr46` -/

/-- `_tr46` without memory. -/
def tr46P (E : Env) (D : Data) (flags : Nat) (s : List Nat) : Res (List Nat) :=
  match u8Decode s with
  | none => .err .encodingError
  | some u =>
    if ∃ c ∈ u, D.status c = .disallowed then .err .disallowed
    else if (mapText D flags u).length ≥ 255 then .err .tooBigDomain
    else
      match E.U.nfc (mapText D flags u) with
      | none => .err .encodingError
      | some x => do
        match ← tr46LabelsP E flags (splitDot x) none with
        | some e => .err e
        | none =>
          match u8Encode x with
          | none => .err .encodingError
          | some o => .ok o

theorem zero_mem_mapText {D : Data} (hD : D.Laws) (flags : Nat) {u : List Nat} (h0 : 0 ∉ u) :
    0 ∉ mapText D flags u := by
  unfold mapText
  rw [List.mem_flatMap]
  rintro ⟨c, hc, h⟩
  have hm : 0 ∉ D.mapping c := fun h => (hD.mapping c 0 h).1 rfl
  have hc0 : 0 ≠ c := fun h => h0 (h ▸ hc)
  unfold emit at h
  revert h
  cases D.status c <;> simp [hm, hc0] <;> split <;> simp [hm, hc0]

theorem mapText_scalar {D : Data} (hD : D.Laws) (flags : Nat) {u : List Nat}
    (hu : ∀ c ∈ u, isScalar c) : ∀ c ∈ mapText D flags u, isScalar c := by
  unfold mapText
  intro x hx
  rw [List.mem_flatMap] at hx
  obtain ⟨c, hc, h⟩ := hx
  have hm : x ∈ D.mapping c → isScalar x := fun h => (hD.mapping c x h).2
  have hcs := hu c hc
  unfold emit at h
  revert h
  have h1 : x ∈ [c] → isScalar x := by
    intro h; rw [List.mem_singleton] at h; exact h ▸ hcs
  cases D.status c <;> simp only
  · exact h1
  · exact hm
  · intro h; cases h
  · split
    · exact hm
    · exact h1
  · exact h1
  · split
    · intro h; cases h
    · exact hm
  · split
    · intro h; cases h
    · exact h1

theorem isScalar_le {c : Nat} (h : isScalar c) : c ≤ 0x10FFFF := by unfold isScalar at h; omega

theorem u8Decode_isScalar {s u : List Nat} (h : u8Decode s = some u) : ∀ c ∈ u, isScalar c := by
  intro c hc
  have := u8Decode_scalar h c hc
  unfold isScalar; omega

theorem u8Decode_zero {s u : List Nat} (h : u8Decode s = some u) : 0 ∈ s ↔ 0 ∈ u :=
  mem_u8Encode_ascii (u8Encode_decode h) (by omega)

theorem tr46_out {E : Env} {D : Data} (hI : Implements E.T D) (hU : E.U.Laws) (hD : D.Laws)
    (flags : Nat) {s : List Nat} (h0 : 0 ∉ s) :
    (tr46 E s flags : Out _) = liftR ((tr46P E D flags s) >>= fun o => .ok (o ++ [0], 0)) := by
  unfold tr46 tr46P
  rw [u8Decode_append_ascii (by omega) h0, u8Decode_nil]
  cases hu : u8Decode s with
  | none => simp [libConv]
  | some u =>
    have hus := u8Decode_isScalar hu
    have hule : ∀ c ∈ u, c ≤ 0x10FFFF := fun c hc => isScalar_le (hus c hc)
    have hu0 : 0 ∉ u := fun h => h0 ((u8Decode_zero hu).mpr h)
    simp only [libConv, Out.malloc_eq, Out.bind_val, Out.pure_eq, Out.touch_eq, Out.free_eq,
      Option.bind_some, Option.map_some, List.dropLast_concat]
    rw [tr46Pass1_eq hI flags hule hu0]
    by_cases hdis : ∃ c ∈ u, D.status c = .disallowed
    · rw [if_pos hdis, if_pos hdis]; simp
    · rw [if_neg hdis, if_neg hdis]
      simp only [Out.liftR_ok, Out.bind_val, Nat.zero_add]
      rw [show IDN2_DOMAIN_MAX_LENGTH = 255 from rfl]
      by_cases hlen : (mapText D flags u).length ≥ 255
      · rw [if_pos hlen, if_pos hlen]; simp
      · rw [if_neg hlen, if_neg hlen]
        rw [tr46Pass2_eq hI flags _ hule [] (by simp), List.nil_append]
        simp only [Out.liftR_ok, Out.bind_val]
        rw [if_neg (by omega)]
        have hsep := hU.nfc_sep (mapText D flags u) 0 [] (Or.inl rfl)
        rw [hU.nfc_ascii [] (by simp)] at hsep
        rw [hsep]
        have ht0 := zero_mem_mapText hD flags hu0
        cases hx : E.U.nfc (mapText D flags u) with
        | none => simp
        | some x =>
          have hx0 : 0 ∉ x := hU.nfc_nosep _ x 0 (Or.inl rfl) ht0 hx
          simp only [Option.bind_some, Option.map_some, Out.bind_val]
          rw [tr46Labels_out hI hU flags 0 hx0]
          cases tr46LabelsP E flags (splitDot x) none with
          | err e => simp
          | ub => simp
          | ok rc =>
            cases rc with
            | some e => simp
            | none =>
              simp only [Out.liftR_ok, Out.bind_val, Res.bind_ok]
              rw [u8Encode_append]
              cases u8Encode x with
              | none => simp
              | some o => simp [u8Encode, u8_uctomb]

/-! ### `idn2_lookup_u8` -/

/-- `idn2_lookup_u8` after the flags have been completed, without memory. -/
def lookupP (E : Env) (D : Data) (flags : Nat) (s : List Nat) : Res (List Nat) := do
  let src ← (if has flags IDN2_NO_TR46 then .ok s else tr46P E D flags s)
  loopL E flags (splitDot src) []

theorem cstr_append {s : List Nat} (h : 0 ∉ s) (r : List Nat) : cstr (s ++ 0 :: r) = some s := by
  induction s with
  | nil => rfl
  | cons c s ih =>
    rw [List.mem_cons, not_or] at h
    rw [List.cons_append, cstr, if_neg (fun hc => h.1 hc.symm), ih h.2]; rfl

theorem tr46P_zero {E : Env} {D : Data} (hU : E.U.Laws) (hD : D.Laws) {flags : Nat}
    {s o : List Nat} (h0 : 0 ∉ s) (h : tr46P E D flags s = .ok o) : 0 ∉ o := by
  unfold tr46P at h
  cases hu : u8Decode s with
  | none => rw [hu] at h; cases h
  | some u =>
    rw [hu] at h
    simp only at h
    have hu0 : 0 ∉ u := fun h => h0 ((u8Decode_zero hu).mpr h)
    have ht0 := zero_mem_mapText hD flags hu0
    split at h
    · cases h
    · split at h
      · cases h
      · cases hx : E.U.nfc (mapText D flags u) with
        | none => rw [hx] at h; cases h
        | some x =>
          rw [hx] at h
          have hx0 : 0 ∉ x := hU.nfc_nosep _ x 0 (Or.inl rfl) ht0 hx
          simp only at h
          obtain ⟨rc, _, h⟩ := Res.bind_eq_ok.mp h
          cases rc with
          | some e => cases h
          | none =>
            cases ho : u8Encode x with
            | none => rw [ho] at h; cases h
            | some o' =>
              rw [ho] at h
              injection h with h
              subst h
              exact fun h => hx0 ((mem_u8Encode_ascii ho (by omega)).mp h)

/-- What an entry point stores and returns, given the outcome of the conversion. -/
def retOf (out : Option Cell) : Res (List Nat) → Out (Option Rc × Option Cell)
  | .ok n => .val (none, out.map fun _ => .buf 0 n)
  | .err e => .val (some e, out)
  | .ub => .ub

/-- The outcome of lookup with the caller's flags. -/
def lookupF (E : Env) (D : Data) (flags : Nat) (s : List Nat) : Res (List Nat) :=
  match set_default_flags flags with
  | .error e => .err e
  | .ok f => lookupP E D f s

theorem lookup_u8_out {E : Env} {D : Data} (hI : Implements E.T D) (hU : E.U.Laws) (hD : D.Laws)
    (flags : Nat) {s : List Nat} (h0 : 0 ∉ s) (out : Option Cell) :
    (idn2_lookup_u8 E (some s) out flags : Out _) = retOf out (lookupF E D flags s) := by
  unfold idn2_lookup_u8 lookupF
  cases set_default_flags flags with
  | error e => simp [retOf]
  | ok f =>
    simp only
    have hfin : ∀ (src : List Nat) (a : Option Nat),
        (do match ← (lookupLoop E f a src [] : Out _) with
            | .error e => pure (some e, out)
            | .ok name => do
              freeOpt a
              match out with
              | none => pure (none, none)
              | some _ =>
                match ← malloc with
                | none => pure (some .malloc, out)
                | some p => pure (none, some (.buf p name))) =
          retOf out (loopL E f (splitDot src) []) := by
      intro src a
      rw [lookupLoop_out]
      cases loopL E f (splitDot src) [] with
      | err e => simp [retOf]
      | ub => simp [retOf]
      | ok n => cases out <;> simp [retOf]
    unfold lookupSource lookupP
    cases hf : has f IDN2_NO_TR46 with
    | true =>
      simp only [Bool.not_true, Bool.false_eq_true, ↓reduceIte, Out.pure_eq, Out.bind_val,
        Res.bind_ok]
      exact hfin s none
    | false =>
      simp only [Bool.not_false, ↓reduceIte, Bool.false_eq_true]
      rw [tr46_out hI hU hD f h0]
      cases ho : tr46P E D f s with
      | err e => simp [retOf]
      | ub => simp [retOf]
      | ok o =>
        have ho0 := tr46P_zero hU hD h0 ho
        simp only [Res.bind_ok, Out.liftR_ok, Out.bind_val, Out.pure_eq, cstr_append ho0]
        exact hfin o (some 0)

end Idn2
