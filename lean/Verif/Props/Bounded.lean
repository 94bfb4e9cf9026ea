import Verif.Props.Lookup
import Verif.Props.Puny
import Verif.Props.Uax15

/-
Property C112: with UTS #46 processing the normaliser sees a bounded part of a name, however long the
name is.
-/

namespace Idn2
open Spec

/-- The same libunistring but for its normaliser. -/
def Uni.renorm (U : Uni) (g : List Nat → Option (List Nat)) : Uni := { U with nfc := g }

section
variable {T : Tables} {U : Uni} {g : List Nat → Option (List Nat)}

theorem ctxjBack_renorm (l : List Nat) (k : Nat) : ctxjBack (U.renorm g) l k = ctxjBack U l k := by
  induction k with
  | zero => rfl
  | succ k ih => unfold ctxjBack; rw [ih]; rfl

theorem ctxjFwd_renorm (l : List Nat) (k t : Nat) : ctxjFwd (U.renorm g) l k t = ctxjFwd U l k t := by
  induction k generalizing t with
  | zero => rfl
  | succ k ih => unfold ctxjFwd; simp only [ih]; rfl

theorem contextj_renorm (l : List Nat) :
    contextj_rule ⟨T, U.renorm g⟩ l = contextj_rule ⟨T, U⟩ l := by
  funext i
  unfold contextj_rule
  simp only [ctxjBack_renorm, ctxjFwd_renorm]
  rfl

theorem bidiLtr_renorm (l : List Nat) (b : Bool) : bidiLtr (U.renorm g) l b = bidiLtr U l b := by
  induction l generalizing b with
  | nil => rfl
  | cons c l ih => unfold bidiLtr; simp only [ih]; rfl

theorem bidiRtl_renorm (l : List Nat) (b : Bool) : bidiRtl (U.renorm g) l b = bidiRtl U l b := by
  induction l generalizing b with
  | nil => rfl
  | cons c l ih => unfold bidiRtl; simp only [ih]; rfl

theorem bidi_renorm (l : List Nat) : idn2_bidi (U.renorm g) l = idn2_bidi U l := by
  unfold idn2_bidi
  simp only [bidiLtr_renorm, bidiRtl_renorm]
  rfl

theorem rest_renorm (w : Nat) (l : List Nat) :
    label_test_rest ⟨T, U.renorm g⟩ w l = label_test_rest ⟨T, U⟩ w l := by
  unfold label_test_rest
  simp only [contextj_renorm, bidi_renorm]
  rfl

theorem label_test_renorm {w : Nat} {l : List Nat} (h : g l = U.nfc l) :
    (label_test ⟨T, U.renorm g⟩ w l : Out _) = label_test ⟨T, U⟩ w l := by
  unfold label_test
  simp only [rest_renorm]
  rw [show (Env.mk T (U.renorm g)).U.nfc l = U.nfc l from h]

theorem isNFC_renorm (l : List Nat) : isNFC ⟨T, U.renorm g⟩ l = isNFC ⟨T, U⟩ l := by
  have h : ∀ (l : List Nat) (b : Bool) (x : Nat) (r : Int),
      isNFCLoop ⟨T, U.renorm g⟩ b l x r = isNFCLoop ⟨T, U⟩ b l x r := by
    intro l
    induction l with
    | nil => intro b x r; cases b <;> rfl
    | cons c l ih =>
      intro b x r
      cases b
      · unfold isNFCLoop; simp only [ih]; rfl
      · unfold isNFCLoop; exact ih _ _ _
  exact h _ _ _ _

theorem u8_to_u32_renorm {src : List Nat} {n : Bool} (h : ∀ p, u8Decode src = some p → g p = U.nfc p) :
    (u8_to_u32_nfc ⟨T, U.renorm g⟩ src n : Out _) = u8_to_u32_nfc ⟨T, U⟩ src n := by
  unfold u8_to_u32_nfc
  cases hd : u8Decode src with
  | none => rfl
  | some p =>
    simp only [isNFC_renorm]
    rw [show (Env.mk T (U.renorm g)).U.nfc = g from rfl]
    simp only [libConv, Out.malloc_eq, Out.bind_val, Out.pure_eq, h p hd]

/-- What `_idn2_u8_to_u32_nfc` returns is the decoded string or its NFC. -/
theorem u8_to_u32_out {E : Env} {src : List Nat} {n : Bool} {p : List Nat} {k : Nat}
    (h : (u8_to_u32_nfc E src n : Out _) = .val (.ok (p, k))) :
    ∃ q, u8Decode src = some q ∧ (p = q ∨ E.U.nfc q = some p) := by
  unfold u8_to_u32_nfc at h
  cases hd : u8Decode src with
  | none => rw [hd] at h; simp [libConv] at h
  | some q =>
    rw [hd] at h
    refine ⟨q, rfl, ?_⟩
    simp only [libConv, Out.malloc_eq, Out.bind_val, Out.pure_eq] at h
    split at h
    · simp only [Out.touch_eq, Out.bind_val] at h
      cases hr : isNFC E q with
      | ub => rw [hr] at h; simp at h
      | err e => rw [hr] at h; simp at h
      | ok r =>
        rw [hr] at h
        simp only [Out.liftR_ok, Out.bind_val] at h
        split at h
        · cases hn : E.U.nfc q with
          | none => rw [hn] at h; simp at h
          | some t => rw [hn] at h; simp at h; exact .inr (by rw [h.1])
        · simp at h; exact .inl h.1.symm
    · simp at h; exact .inl h.1.symm

theorem labelConvert_renorm {K N : Nat} (hK : ∀ v t, U.nfc v = some t → t.length ≤ K * v.length)
    (hg : ∀ v, v.length ≤ N → g v = U.nfc v) {src : List Nat} {rt : Option (List Nat)} {a : Option Nat}
    {f : Nat} (h1 : 1 ≤ K) (hs : ∀ p, u8Decode src = some p → K * p.length ≤ N) :
    (labelConvert ⟨T, U.renorm g⟩ src rt a f : Out _) = labelConvert ⟨T, U⟩ src rt a f := by
  have hle : ∀ n, n ≤ K * n := fun n => by
    have := Nat.mul_le_mul_right n h1
    omega
  unfold labelConvert
  rw [u8_to_u32_renorm fun p hp => hg p (Nat.le_trans (hle _) (hs p hp))]
  cases hu : (u8_to_u32_nfc ⟨T, U⟩ src (has f IDN2_NFC_INPUT) : Out _) with
  | ub => rfl
  | val r =>
    cases r with
    | error e => rfl
    | ok r =>
      obtain ⟨p, pp⟩ := r
      obtain ⟨q, hq, hp⟩ := u8_to_u32_out hu
      have hpl : p.length ≤ N := by
        rcases hp with rfl | hp
        · exact Nat.le_trans (hle _) (hs p hq)
        · exact Nat.le_trans (hK _ _ hp) (hs q hq)
      simp only [Out.bind_val]
      rw [label_test_renorm (hg p hpl)]

end

/-! ### Lengths -/

/-- The number of bytes that begin a character. -/
def leads (s : List Nat) : Nat := s.countP fun b => decide (b < 0x80 ∨ 0xC0 ≤ b)

theorem leads_uctomb {c : Nat} {bs : List Nat} (h : u8_uctomb c = some bs) : leads bs = 1 := by
  unfold u8_uctomb at h
  unfold leads
  repeat' split at h
  all_goals first
    | (cases h; done)
    | (obtain rfl := Option.some.inj h
       simp only [List.countP_cons, List.countP_nil, decide_eq_true_eq]
       repeat' split
       all_goals omega)

/-- As many characters as bytes that begin one. -/
theorem leads_encode {u s : List Nat} (h : u8Encode u = some s) : leads s = u.length := by
  induction u generalizing s with
  | nil => cases h; rfl
  | cons c u ih =>
    unfold u8Encode at h
    cases hc : u8_uctomb c with
    | none => rw [hc] at h; cases h
    | some bs =>
      rw [hc] at h
      obtain ⟨t, ht, rfl⟩ := Option.map_eq_some_iff.mp h
      have h1 := leads_uctomb hc
      have h2 := ih ht
      unfold leads at *
      rw [List.countP_append, h1, h2, List.length_cons]
      omega

theorem leads_decode {u s : List Nat} (h : u8Decode s = some u) : leads s = u.length :=
  leads_encode (u8Decode_iff.mp h)

theorem leads_sublist {a b : List Nat} (h : a.Sublist b) : leads a ≤ leads b :=
  List.Sublist.countP_le h

theorem cstr_sublist {s t : List Nat} (h : cstr s = some t) : t.Sublist s := by
  induction s generalizing t with
  | nil => cases h
  | cons c s ih =>
    unfold cstr at h
    split at h
    · cases h; exact List.nil_sublist _
    · obtain ⟨r, hr, rfl⟩ := Option.map_eq_some_iff.mp h
      exact (ih hr).cons_cons _

theorem decoded_length {s u : List Nat} (h : punycode_decode 63 63 s = .ok u) : u.length ≤ 63 :=
  (C05_decode_output (by decide) h).2.2.2

section
variable {T : Tables} {U : Uni} {g : List Nat → Option (List Nat)} {K N : Nat}

theorem label_renorm (hK : ∀ v t, U.nfc v = some t → t.length ≤ K * v.length)
    (hg : ∀ v, v.length ≤ N → g v = U.nfc v) {src : List Nat} {f : Nat} (h1 : 1 ≤ K)
    (hN : K * 63 ≤ N) (hs : K * leads src ≤ N) :
    (label ⟨T, U.renorm g⟩ src f : Out _) = label ⟨T, U⟩ src f := by
  unfold label
  split
  · split
    · cases hd : punycode_decode 63 63 (src.drop 4) with
      | ub => rfl
      | err e => rfl
      | ok l =>
        simp only [Out.liftR_ok, Out.bind_val, libConv, Out.malloc_eq]
        cases he : u8Encode l with
        | none => rfl
        | some s8 =>
          simp only [Out.pure_eq, Out.bind_val, Out.touch_eq]
          refine labelConvert_renorm hK hg h1 fun p hp => ?_
          have h2 := leads_decode hp
          have h3 := leads_encode he
          have h4 := decoded_length hd
          exact Nat.le_trans (Nat.mul_le_mul_left K (by omega)) hN
    · rfl
  · refine labelConvert_renorm hK hg h1 fun p hp => ?_
    rw [← leads_decode hp]
    exact hs

theorem lookupLoop_renorm (hK : ∀ v t, U.nfc v = some t → t.length ≤ K * v.length)
    (hg : ∀ v, v.length ≤ N → g v = U.nfc v) {f : Nat} {a : Option Nat} (h1 : 1 ≤ K)
    (hN : K * 63 ≤ N) (src name : List Nat) (hs : K * leads src ≤ N) :
    (lookupLoop ⟨T, U.renorm g⟩ f a src name : Out _) = lookupLoop ⟨T, U⟩ f a src name := by
  generalize hn : src.length = n
  induction n using Nat.strongRecOn generalizing src name with
  | ind n ih =>
    unfold lookupLoop
    rw [label_renorm hK hg h1 hN (Nat.le_trans (Nat.mul_le_mul_left K
      (leads_sublist (List.takeWhile_sublist _))) hs)]
    cases hl : (label ⟨T, U⟩ (src.takeWhile (· != 0x2E)) f : Out _) with
    | ub => simp
    | val r =>
      cases r with
      | error e => simp
      | ok tmp =>
        simp only [Out.touchOpt_eq, Out.bind_val]
        split
        · rfl
        · rename_i c rest he
          have hsub : rest.Sublist src := by
            have := List.dropWhile_sublist (· != 0x2E) (l := src)
            rw [he] at this
            exact (List.sublist_cons_self _ _).trans this
          rw [ih rest.length (by
            have := dropWhile_length_le (· != 0x2E) src
            rw [he, List.length_cons] at this
            omega) rest _ (Nat.le_trans (Nat.mul_le_mul_left K (leads_sublist hsub)) hs) rfl]

theorem tr46Label_renorm (hg : ∀ v, v.length ≤ N → g v = U.nfc v) {f : Nat} {l : List Nat}
    (hN : 63 ≤ N) (hl : l.length ≤ N) :
    (tr46Label ⟨T, U.renorm g⟩ f l : Out _) = tr46Label ⟨T, U⟩ f l := by
  unfold tr46Label
  split
  · simp only [libConv, Out.malloc_eq, Out.bind_val]
    cases he : u8Encode (l.drop 4) with
    | none => rfl
    | some s8 =>
      simp only [Out.pure_eq, Out.bind_val, Out.touch_eq]
      cases hd : punycode_decode 63 63 s8 with
      | ub => rfl
      | err e => rfl
      | ok p =>
        simp only [Out.liftR_ok, Out.bind_val, Out.free_eq]
        rw [label_test_renorm (hg p (Nat.le_trans (decoded_length hd) hN))]
  · simp only [label_test_renorm (hg l hl)]

theorem tr46Labels_renorm (hg : ∀ v, v.length ≤ N → g v = U.nfc v) {f dp : Nat} (hN : 63 ≤ N)
    (s : List Nat) (err : Option Rc) (hs : s.length ≤ N) :
    (tr46Labels ⟨T, U.renorm g⟩ f dp s err : Out _) = tr46Labels ⟨T, U⟩ f dp s err := by
  generalize hn : s.length = n
  induction n using Nat.strongRecOn generalizing s err with
  | ind n ih =>
    unfold tr46Labels
    split
    · rfl
    · rename_i c rest he
      have hle := dropWhile_length_le (fun c => !isEnd c) s
      rw [he, List.length_cons] at hle
      rw [tr46Label_renorm hg hN (Nat.le_trans (List.takeWhile_sublist _).length_le hs)]
      cases hl : (tr46Label ⟨T, U⟩ f (s.takeWhile fun c => !isEnd c) : Out _) with
      | ub => simp
      | val r =>
        cases r with
        | error e => simp
        | ok rc =>
          simp only [Out.touch_eq, Out.bind_val]
          rw [ih rest.length (by omega) rest _ (by omega) rfl]

theorem tr46Pass1_renorm (f n : Nat) (l : List Nat) :
    tr46Pass1 ⟨T, U.renorm g⟩ f l n = tr46Pass1 ⟨T, U⟩ f l n := by
  induction l generalizing n with
  | nil => rfl
  | cons c l ih => unfold tr46Pass1; simp only [ih]; rfl

theorem tr46Pass2_renorm (f n : Nat) (l t : List Nat) :
    tr46Pass2 ⟨T, U.renorm g⟩ f n l t = tr46Pass2 ⟨T, U⟩ f n l t := by
  induction l generalizing t with
  | nil => rfl
  | cons c l ih => unfold tr46Pass2; simp only [ih]; rfl

/-- With UTS #46 processing what is normalised has at most 255 code points. -/
theorem tr46_renorm (hK : ∀ v t, U.nfc v = some t → t.length ≤ K * v.length)
    (hg : ∀ v, v.length ≤ N → g v = U.nfc v) {src : List Nat} {f : Nat} (h1 : 1 ≤ K)
    (hN : K * 255 ≤ N) :
    (tr46 ⟨T, U.renorm g⟩ src f : Out _) = tr46 ⟨T, U⟩ src f ∧
    ∀ out op, (tr46 ⟨T, U⟩ src f : Out _) = .val (.ok (out, op)) → leads out ≤ K * 255 := by
  have h255 : 255 ≤ K * 255 := by omega
  unfold tr46
  simp only [libConv, Out.malloc_eq, Out.bind_val, tr46Pass1_renorm, tr46Pass2_renorm]
  cases hd : u8Decode (src ++ [0]) with
  | none => simp
  | some d =>
    simp only [Out.pure_eq, Out.bind_val, Out.touch_eq, Out.free_eq]
    cases hp1 : tr46Pass1 ⟨T, U⟩ f d.dropLast 0 with
    | ub => simp
    | err e => simp
    | ok n =>
      simp only [Out.liftR_ok, Out.bind_val]
      split
      · simp
      · rename_i hn
        cases hp2 : tr46Pass2 ⟨T, U⟩ f (n + 1) d.dropLast [] with
        | ub => simp
        | err e => simp
        | ok tmp =>
          simp only [Out.liftR_ok, Out.bind_val]
          split
          · simp
          · rename_i ht
            have hl : (tmp ++ [0]).length ≤ 255 := by
              unfold IDN2_DOMAIN_MAX_LENGTH at hn
              simp only [List.length_append, List.length_cons, List.length_nil]
              omega
            rw [show (U.renorm g).nfc = g from rfl, hg _ (by omega)]
            cases hv : U.nfc (tmp ++ [0]) with
            | none => simp
            | some v =>
              have hvl : v.length ≤ K * 255 := Nat.le_trans (hK _ _ hv) (Nat.mul_le_mul_left K hl)
              simp only [Out.bind_val]
              rw [tr46Labels_renorm hg (by omega) v none (by omega)]
              refine ⟨rfl, ?_⟩
              intro out op h
              cases hlab : (tr46Labels ⟨T, U⟩ f 0 v none : Out _) with
              | ub => rw [hlab] at h; simp at h
              | val r =>
                rw [hlab] at h
                cases r with
                | error e => simp at h
                | ok r =>
                  cases r with
                  | some e => simp at h
                  | none =>
                    cases he : u8Encode v with
                    | none => rw [he] at h; simp at h
                    | some o =>
                      rw [he] at h
                      simp at h
                      rw [← h.1, leads_encode he]
                      exact hvl

end

/-- C112.  With UTS #46 processing the outcome depends on the normaliser only through what it makes of
at most 255·K² code points, if it makes at most K code points of each: however long the name, it is
given no more. -/
theorem C112_bounded {T : Tables} {U : Uni} {g : List Nat → Option (List Nat)} {K : Nat} (h1 : 1 ≤ K)
    (hK : ∀ v t, U.nfc v = some t → t.length ≤ K * v.length)
    (hg : ∀ v, v.length ≤ K * (K * 255) → g v = U.nfc v) {f : Nat} (f6 : f.testBit 6 = false)
    (src : Option (List Nat)) (cell : Option Cell) :
    (idn2_lookup_u8 ⟨T, { U with nfc := g }⟩ src cell f : Out _) = idn2_lookup_u8 ⟨T, U⟩ src cell f := by
  show (idn2_lookup_u8 ⟨T, U.renorm g⟩ src cell f : Out _) = _
  have hKK : K * 255 ≤ K * (K * 255) := Nat.mul_le_mul_left K (by omega)
  unfold idn2_lookup_u8
  cases src with
  | none => rfl
  | some src =>
    simp only []
    cases hf : set_default_flags f with
    | error e => rfl
    | ok f' =>
      have hno : has f' IDN2_NO_TR46 = false := by
        rw [set_default_flags_bits hf _ (by decide), (flag_bits f).2.2.2.2.2.1, f6]
      simp only []
      obtain ⟨e1, e2⟩ := tr46_renorm (T := T) hK hg (src := src) (f := f') h1 hKK
      unfold lookupSource
      simp only [hno, Bool.not_false, if_true]
      rw [e1]
      cases ht : (tr46 ⟨T, U⟩ src f' : Out _) with
      | ub => rfl
      | val r =>
        cases r with
        | error e => rfl
        | ok r =>
          obtain ⟨out, op⟩ := r
          simp only [Out.bind_val, Out.pure_eq]
          cases hc : cstr out with
          | none => rfl
          | some s =>
            have hs : leads s ≤ K * 255 :=
              Nat.le_trans (leads_sublist (cstr_sublist hc)) (e2 out op ht)
            simp only []
            rw [lookupLoop_renorm hK hg h1 (by omega) s [] (Nat.mul_le_mul_left K hs)]

/-! ### The normaliser of UAX #15 -/

theorem Spec.Uax15.ordIns_length (X : Uax15) (c : Nat) (s : List Nat) :
    (X.ordIns c s).length = s.length + 1 := by
  induction s with
  | nil => rfl
  | cons x s ih =>
    unfold Uax15.ordIns
    split
    · rw [List.length_cons, ih, List.length_cons]
    · rfl

theorem Spec.Uax15.reorder_length (X : Uax15) (s : List Nat) : (X.reorder s).length = s.length := by
  induction s with
  | nil => rfl
  | cons c s ih =>
    show (X.ordIns c (X.reorder s)).length = _
    rw [X.ordIns_length, ih, List.length_cons]

theorem Spec.Uax15.composeFrom_length (X : Uax15) (l : Nat) (k s : List Nat) :
    (X.composeFrom l k s).length ≤ s.length + k.length + 1 := by
  induction s generalizing l k with
  | nil => simp [Uax15.composeFrom]
  | cons c s ih =>
    unfold Uax15.composeFrom
    split
    · rename_i d _
      have := ih d k
      rw [List.length_cons]; omega
    · split
      · have := ih c []
        simp only [List.cons_append, List.length_cons, List.length_append, List.length_nil] at this ⊢
        omega
      · have := ih l (k ++ [c])
        simp only [List.length_append, List.length_cons, List.length_nil] at this ⊢
        omega

theorem Spec.Uax15.compose_length (X : Uax15) (s : List Nat) : (X.compose s).length ≤ s.length := by
  induction s with
  | nil => exact Nat.le_refl _
  | cons c s ih =>
    unfold Uax15.compose
    split
    · have := X.composeFrom_length c [] s
      simpa using this
    · simpa using ih

/-- NFC makes of a text at most as many code points for each as there are in a decomposition. -/
theorem C112_uax15 {X : Uax15} {U : Uni} (hN : X.Normalises U) {K : Nat}
    (h : ∀ c, (X.decomp c).length ≤ K) :
    ∀ v t, U.nfc v = some t → t.length ≤ K * v.length := by
  intro v t ht
  rw [hN.nfc] at ht
  obtain rfl := Option.some.inj ht
  refine Nat.le_trans (X.compose_length _) ?_
  unfold Uax15.nfd
  rw [X.reorder_length]
  induction v with
  | nil => simp
  | cons c v ih =>
    rw [List.flatMap_cons, List.length_append, List.length_cons, Nat.mul_add]
    have := h c
    have := ih rfl
    omega

theorem lookup_noTr46 {E : Env} {src p : List Nat} (hd : u8Decode src = some p)
    (hdot : src.takeWhile (· != 0x2E) = src) (ha : ascii_p src = false) {e : Rc}
    (h : (label_test E (labelMask 64) p : Out _) = .val (.error e)) :
    (idn2_lookup_u8 E (some src) none 64 : Out _) = .val (some e, none) := by
  have h2 : has 64 IDN2_NFC_INPUT = false ∧ has 64 IDN2_TRANSITIONAL = false := by decide
  have hl : (label E src 64 : Out _) = .val (.error e) := by
    unfold label labelConvert u8_to_u32_nfc
    rw [ha, hd, h2.1, h2.2]
    simp only [libConv, Out.malloc_eq, Out.bind_val, Out.pure_eq, Bool.false_eq_true, if_false, h,
      Out.free_eq, Out.freeOpt_eq]
  have hs : set_default_flags 64 = .ok 64 := by decide
  have h3 : has 64 IDN2_NO_TR46 = true := by decide
  unfold idn2_lookup_u8 lookupSource
  simp only [hs, h3, Bool.not_true, Bool.false_eq_true, if_false, Out.pure_eq, Out.bind_val]
  unfold lookupLoop
  simp only [Out.touchOpt_eq, Out.bind_val, hdot, hl, Out.freeOpt_eq, Out.pure_eq]

theorem umlauts (n : Nat) : ∃ src, u8Decode src = some (List.replicate (n + 1) 0xFC) ∧
    src.takeWhile (· != 0x2E) = src ∧ ascii_p src = false := by
  have hs : ∀ c ∈ List.replicate (n + 1) 0xFC, isScalar c := by
    intro c hc
    rw [List.eq_of_mem_replicate hc]
    unfold isScalar
    decide
  have hd := u8Decode_iff.mpr (u8Encode_utf8s hs)
  have he : utf8s (List.replicate (n + 1) 0xFC) = (List.replicate (n + 1) [0xC3, 0xBC]).flatten := by
    clear hs hd
    induction n with
    | zero => decide
    | succ n ih =>
      rw [List.replicate_succ, List.replicate_succ (a := [0xC3, 0xBC]), List.flatten_cons, ← ih]
      rfl
  refine ⟨_, hd, ?_, ?_⟩
  · have hall : ∀ {l : List Nat}, (∀ b ∈ l, (b != 0x2E) = true) → l.takeWhile (· != 0x2E) = l := by
      intro l hl
      induction l with
      | nil => rfl
      | cons x l ih =>
        rw [List.takeWhile_cons_of_pos (p := (· != 0x2E)) (hl x List.mem_cons_self),
          ih fun b hb => hl b (List.mem_cons_of_mem _ hb)]
    rw [he]
    refine hall fun b hb => ?_
    obtain ⟨l, hl, hb⟩ := List.mem_flatten.mp hb
    rw [List.eq_of_mem_replicate hl] at hb
    simp only [List.mem_cons, List.not_mem_nil, or_false] at hb
    rcases hb with rfl | rfl <;> decide
  · rw [he]
    simp [ascii_p, List.replicate_succ]

/-- C112.  Without UTS #46 processing there is no such bound: for every length there is a name of which
the outcome depends on what longer lists are normalised to. -/
theorem C112_unbounded (T : Tables) (U : Uni) (N : Nat) : ∃ (g g' : List Nat → Option (List Nat)),
    (∀ v, v.length ≤ N → g v = g' v) ∧ ∃ src,
      (idn2_lookup_u8 ⟨T, { U with nfc := g }⟩ (some src) none 64 : Out _) = .val (some .nfc, none) ∧
      (idn2_lookup_u8 ⟨T, { U with nfc := g' }⟩ (some src) none 64 : Out _) =
        .val (some .notNfc, none) := by
  obtain ⟨src, h1, h2, h3⟩ := umlauts N
  have hw : has (labelMask 64) TEST_NFC = true := by decide
  have hn : ¬ (List.replicate (N + 1) 0xFC).length ≤ N := by simp
  refine ⟨fun v => if v.length ≤ N then some v else none,
    fun v => if v.length ≤ N then some v else some [], ?_, src, ?_, ?_⟩
  · intro v hv
    simp only [if_pos hv]
  · refine lookup_noTr46 h1 h2 h3 ?_
    unfold label_test
    simp only [hw, if_true, if_neg hn, libConv, Out.malloc_eq, Out.bind_val, Out.free_eq, Out.pure_eq]
  · refine lookup_noTr46 h1 h2 h3 ?_
    unfold label_test
    simp only [hw, if_true, if_neg hn, libConv, Out.malloc_eq, Out.bind_val, Out.free_eq, Out.pure_eq,
      Out.touch_eq]
    rw [if_neg (by simp)]

/-- With the normaliser of the sample: names longer than three times 765 may as well be normalised to
nothing. -/
example (src : List Nat) : (idn2_lookup_u8 ⟨Shipped.T,
      { Mini.U with nfc := fun v => if v.length ≤ 2295 then Mini.U.nfc v else none }⟩
      (some src) none 0 : Out _) = idn2_lookup_u8 ⟨Shipped.T, Mini.U⟩ (some src) none 0 := by
  refine C112_bounded (K := 3) (by decide) (C112_uax15 Mini.normalises ?_) (fun v hv => ?_) (by decide)
    _ _
  · intro c
    simp only [Mini.X]
    repeat' split
    all_goals simp
  · simp only [if_pos (show v.length ≤ 2295 by omega)]

end Idn2
