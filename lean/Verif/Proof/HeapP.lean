import Verif.Proof.Tr46P
import Verif.Proof.LabelP
import Verif.Spec.Heap

/-
The heap instance: every function, started in any heap with any schedule of allocation
failures, ends without undefined behaviour, with the blocks it should own, and with either
IDN2_MALLOC or the outcome of the closed form.
-/

namespace Idn2
open Spec

/-- With the failure schedule `F` and the live blocks `L`, `x` has a result `r` and leaves the
live blocks `L'`, with `Q r L'`; and it depends on the schedule only as far as it allocates. -/
def Tri {α : Type} (F : Nat → Bool) (x : HeapM α) (L : List Nat) (Q : α → List Nat → Prop) : Prop :=
  ∀ h : Heap, h.Ok → h.fails = F → h.live = L →
    ∃ r h', x h = .val (r, h') ∧ h'.Ok ∧ h'.fails = F ∧ Q r h'.live ∧ h.count ≤ h'.count ∧
      ∀ F', (∀ k, h.count ≤ k → k < h'.count → F' k = F k) →
        x { h with fails := F' } = .val (r, { h' with fails := F' })

namespace Tri

variable {α β : Type} {F : Nat → Bool} {L : List Nat}

theorem pure {a : α} {Q : α → List Nat → Prop} (h : Q a L) : Tri F (pure a : HeapM α) L Q := by
  intro H h1 h2 h3
  exact ⟨a, H, rfl, h1, h2, h3 ▸ h, Nat.le_refl _, fun _ _ => rfl⟩

theorem bind {x : HeapM α} {f : α → HeapM β} {Q : α → List Nat → Prop} {R : β → List Nat → Prop}
    (hx : Tri F x L Q) (hf : ∀ a L', L'.Nodup → Q a L' → Tri F (f a) L' R) :
    Tri F (x >>= f) L R := by
  intro H h1 h2 h3
  obtain ⟨r, H', e1, e2, e3, e4, e5, e6⟩ := hx H h1 h2 h3
  obtain ⟨r', H'', g1, g2, g3, g4, g5, g6⟩ := hf r H'.live e2.nodup e4 H' e2 e3 rfl
  have key : ∀ h, (x >>= f) h = match x h with
    | .val (a, h') => f a h'
    | .ub => .ub := fun _ => rfl
  refine ⟨r', H'', ?_, g2, g3, g4, by omega, ?_⟩
  · rw [key, e1]
    exact g1
  · intro F' hF
    rw [key, e6 F' fun k hk1 hk2 => hF k hk1 (by omega)]
    exact g6 F' fun k hk1 hk2 => hF k (by omega) hk2

theorem imp {x : HeapM α} {Q R : α → List Nat → Prop} (hx : Tri F x L Q)
    (h : ∀ a L', L'.Nodup → Q a L' → R a L') : Tri F x L R := by
  intro H h1 h2 h3
  obtain ⟨r, H', e1, e2, e3, e4, e5⟩ := hx H h1 h2 h3
  exact ⟨r, H', e1, e2, e3, h _ _ e2.nodup e4, e5⟩

theorem malloc : Tri F (malloc : HeapM (Option Nat)) L (fun r L' =>
    ((∃ k, F k = true) ∧ r = none ∧ L' = L) ∨ ∃ p, r = some p ∧ L' = p :: L) := by
  intro H h1 h2 h3
  have key : ∀ H : Heap, (Idn2.malloc : HeapM (Option Nat)) H =
      if H.fails H.count then .val (none, { H with count := H.count + 1 })
      else .val (some H.count, { H with live := H.count :: H.live, count := H.count + 1 }) :=
    fun _ => rfl
  rw [key]
  by_cases hf : H.fails H.count = true
  · rw [if_pos hf]
    refine ⟨_, _, rfl, ⟨h1.nodup, fun p hp => ?_⟩, h2, Or.inl ⟨⟨_, h2 ▸ hf⟩, rfl, h3⟩,
      Nat.le_succ _, fun F' hF => ?_⟩
    · have := h1.lt p hp
      show p < H.count + 1
      omega
    · rw [key]
      exact if_pos (by
        have := hF H.count (Nat.le_refl _) (Nat.lt_succ_self _)
        rw [← h2] at this
        exact this.trans hf)
  · rw [if_neg hf]
    refine ⟨_, _, rfl, ⟨?_, ?_⟩, h2, Or.inr ⟨_, rfl, by rw [← h3]⟩, Nat.le_succ _, fun F' hF => ?_⟩
    · refine List.nodup_cons.mpr ⟨fun hc => ?_, h1.nodup⟩
      have := h1.lt _ hc
      omega
    · intro p hp
      show p < H.count + 1
      rcases List.mem_cons.mp hp with rfl | hp
      · omega
      · have := h1.lt p hp; omega
    · rw [key]
      exact if_neg (by
        have := hF H.count (Nat.le_refl _) (Nat.lt_succ_self _)
        rw [← h2] at this
        exact fun hc => hf (this.symm.trans hc))

theorem free {p : Nat} (hp : p ∈ L) : Tri F (cfree p : HeapM Unit) L (fun _ L' => L' = L.erase p) := by
  intro H h1 h2 h3
  have key : ∀ H : Heap, (cfree p : HeapM Unit) H =
      if p ∈ H.live then Out.val ((), { H with live := H.live.erase p }) else .ub := fun _ => rfl
  refine ⟨(), { H with live := H.live.erase p }, ?_, ⟨h1.nodup.erase p, fun q hq =>
    h1.lt q (List.mem_of_mem_erase hq)⟩, h2, by rw [← h3], Nat.le_refl _, fun F' _ => ?_⟩
  · rw [key, if_pos (h3 ▸ hp)]
  · rw [key, if_pos (h3 ▸ hp)]

theorem touch {p : Nat} (hp : p ∈ L) : Tri F (touch p : HeapM Unit) L (fun _ L' => L' = L) := by
  intro H h1 h2 h3
  have key : ∀ H : Heap, (Idn2.touch p : HeapM Unit) H =
      if p ∈ H.live then Out.val ((), H) else .ub := fun _ => rfl
  refine ⟨(), H, ?_, h1, h2, h3, Nat.le_refl _, fun F' _ => ?_⟩
  · rw [key, if_pos (h3 ▸ hp)]
  · rw [key, if_pos (h3 ▸ hp)]

/-- Freeing the newest block. -/
theorem freeHead {p : Nat} : Tri F (cfree p : HeapM Unit) (p :: L) (fun _ L' => L' = L) := by
  have := free (F := F) (L := p :: L) (p := p) (by simp)
  rwa [List.erase_cons_head] at this

/-- Freeing the block before. -/
theorem freeSecond {p q : Nat} (hn : (q :: p :: L).Nodup) :
    Tri F (cfree p : HeapM Unit) (q :: p :: L) (fun _ L' => L' = q :: L) := by
  have := free (F := F) (L := q :: p :: L) (p := p) (by simp)
  have hne : q ≠ p := by
    have := (List.nodup_cons.mp hn).1
    simp at this
    exact this.1
  rwa [List.erase_cons_tail (by simpa using hne), List.erase_cons_head] at this

theorem touchHead {p : Nat} : Tri F (Idn2.touch p : HeapM Unit) (p :: L) (fun _ L' => L' = p :: L) :=
  touch (by simp)

end Tri

/-- `r` is the outcome `v`, or IDN2_MALLOC after a failed allocation; nothing is kept. -/
def Same {α : Type} (F : Nat → Bool) (v : Res α) (L : List Nat) (r : Except Rc α)
    (L' : List Nat) : Prop :=
  L' = L ∧ (((∃ k, F k = true) ∧ r = .error .malloc) ∨ (∃ e, v = .err e ∧ r = .error e) ∨
    ∃ a, v = .ok a ∧ r = .ok a)

/-- `r` is the outcome `v` with a new block, or IDN2_MALLOC after a failed allocation. -/
def Owned {α : Type} (F : Nat → Bool) (v : Res α) (L : List Nat) (r : Except Rc (α × Nat))
    (L' : List Nat) : Prop :=
  ((∃ k, F k = true) ∧ r = .error .malloc ∧ L' = L) ∨ (∃ e, v = .err e ∧ r = .error e ∧ L' = L) ∨
    ∃ a p, v = .ok a ∧ r = .ok (a, p) ∧ L' = p :: L

variable {F : Nat → Bool} {L : List Nat}

theorem tri_liftR {α : Type} {v : Res α} (h : v ≠ .ub) :
    Tri F (liftR v : HeapM (Except Rc α)) L (fun r L' => L' = L ∧
      ((∃ e, v = .err e ∧ r = .error e) ∨ ∃ a, v = .ok a ∧ r = .ok a)) := by
  cases v with
  | ub => exact absurd rfl h
  | err e => exact Tri.pure ⟨rfl, Or.inl ⟨e, rfl, rfl⟩⟩
  | ok a => exact Tri.pure ⟨rfl, Or.inr ⟨a, rfl, rfl⟩⟩

theorem tri_libConv {α : Type} (f : Option α) : Tri F (libConv f : HeapM (LibRet α)) L
    (fun r L' => ((∃ k, F k = true) ∧ r = .enomem ∧ L' = L) ∨ (f = none ∧ r = .other ∧ L' = L) ∨
      ∃ a p, f = some a ∧ r = .val a p ∧ L' = p :: L) := by
  unfold libConv
  refine Tri.bind Tri.malloc ?_
  rintro _ _ hn (⟨hk, rfl, rfl⟩ | ⟨p, rfl, rfl⟩)
  · exact Tri.pure (Or.inl ⟨hk, rfl, rfl⟩)
  · cases f with
    | none =>
      refine Tri.bind Tri.freeHead ?_
      rintro _ _ _ rfl
      exact Tri.pure (Or.inr (Or.inl ⟨rfl, rfl, rfl⟩))
    | some a => exact Tri.pure (Or.inr (Or.inr ⟨a, p, rfl, rfl, rfl⟩))

theorem tri_label_test {E : Env} {what : Nat} {label : List Nat} (h : labelTestP E what label ≠ .ub) :
    Tri F (label_test E what label : HeapM _) L (Same F (labelTestP E what label) L) := by
  have hrest : ∀ {v : Res Unit}, v ≠ .ub → Tri F (liftR v : HeapM (Except Rc Unit)) L (Same F v L) :=
    fun hv => (tri_liftR hv).imp fun _ _ _ h => ⟨h.1, Or.inr h.2⟩
  unfold label_test
  unfold labelTestP at h ⊢
  by_cases hw : has what TEST_NFC = true
  · rw [if_pos hw] at h ⊢
    rw [if_pos hw]
    refine Tri.bind (tri_libConv _) ?_
    rintro _ _ _ (⟨hk, rfl, rfl⟩ | ⟨hf, rfl, rfl⟩ | ⟨t, p, hf, rfl, rfl⟩)
    · exact Tri.pure ⟨rfl, Or.inl ⟨hk, rfl⟩⟩
    · rw [hf]
      exact Tri.pure ⟨rfl, Or.inr (Or.inl ⟨_, rfl, rfl⟩)⟩
    · rw [hf] at h ⊢
      refine Tri.bind Tri.touchHead ?_
      rintro _ _ _ rfl
      refine Tri.bind Tri.freeHead ?_
      rintro _ _ _ rfl
      by_cases ht : t = label
      · simp only [if_pos ht] at h ⊢
        exact hrest h
      · simp only [if_neg ht] at h ⊢
        exact Tri.pure ⟨rfl, Or.inr (Or.inl ⟨_, rfl, rfl⟩)⟩
  · rw [if_neg hw] at h ⊢
    rw [if_neg hw]
    exact hrest h

theorem tri_u8_to_u32_nfc {E : Env} {D : Data} (hI : Implements E.T D) (src : List Nat) (nfc : Bool) :
    Tri F (u8_to_u32_nfc E src nfc : HeapM _) L (Owned F (u8nfcP E src nfc) L) := by
  unfold u8_to_u32_nfc u8nfcP
  refine Tri.bind (tri_libConv _) ?_
  rintro _ _ hn (⟨hk, rfl, rfl⟩ | ⟨hf, rfl, rfl⟩ | ⟨p, pp, hf, rfl, rfl⟩)
  · exact Tri.pure (Or.inl ⟨hk, rfl, rfl⟩)
  · rw [hf]
    exact Tri.pure (Or.inr (Or.inl ⟨_, rfl, rfl, rfl⟩))
  · rw [hf]
    simp only
    cases nfc with
    | false => exact Tri.pure (Or.inr (Or.inr ⟨_, _, rfl, rfl, rfl⟩))
    | true =>
      simp only [↓reduceIte]
      obtain ⟨v, hv⟩ := isNFC_ne_ub hI (fun c hc => isScalar_le (u8Decode_isScalar hf c hc))
      rw [hv]
      refine Tri.bind Tri.touchHead ?_
      rintro _ _ _ rfl
      refine Tri.bind (tri_liftR (by simp)) ?_
      rintro _ _ _ ⟨rfl, ⟨e, he, _⟩ | ⟨r, he, rfl⟩⟩
      · cases he
      · injection he with he
        subst he
        simp only [Res.bind_ok]
        by_cases h0 : v = 0
        · rw [if_pos h0, if_pos h0]
          refine Tri.bind (tri_libConv _) ?_
          rintro _ _ hn' (⟨hk, rfl, rfl⟩ | ⟨hf, rfl, rfl⟩ | ⟨t, tp, hf, rfl, rfl⟩)
          · refine Tri.bind Tri.freeHead ?_
            rintro _ _ _ rfl
            exact Tri.pure (Or.inl ⟨hk, rfl, rfl⟩)
          · rw [hf]
            refine Tri.bind Tri.freeHead ?_
            rintro _ _ _ rfl
            exact Tri.pure (Or.inr (Or.inl ⟨_, rfl, rfl, rfl⟩))
          · rw [hf]
            refine Tri.bind (Tri.freeSecond hn') ?_
            rintro _ _ _ rfl
            exact Tri.pure (Or.inr (Or.inr ⟨_, _, rfl, rfl, rfl⟩))
        · rw [if_neg h0, if_neg h0]
          exact Tri.pure (Or.inr (Or.inr ⟨_, _, rfl, rfl, rfl⟩))

theorem tri_freeOpt (a : Option Nat) :
    Tri F (freeOpt a : HeapM Unit) (a.toList ++ L) (fun _ L' => L' = L) := by
  cases a with
  | none => exact Tri.pure rfl
  | some p => exact Tri.freeHead

theorem tri_touchOpt (a : Option Nat) :
    Tri F (touchOpt a : HeapM Unit) (a.toList ++ L) (fun _ L' => L' = a.toList ++ L) := by
  cases a with
  | none => exact Tri.pure rfl
  | some p => exact Tri.touchHead

theorem tri_labelConvert {E : Env} {D : Data} (hI : Implements E.T D) (hU : E.U.Laws)
    {src : List Nat} {rt : Option (List Nat)} {a : Option Nat} {flags : Nat}
    (h0 : ∀ s, rt = some s → 0 ∉ s) :
    Tri F (labelConvert E src rt a flags : HeapM _) (a.toList ++ L)
      (Same F (labelConvertP E src rt flags) L) := by
  unfold labelConvert labelConvertP
  obtain ⟨hs1, hs2⟩ := u8nfcP_spec hI hU src (has flags IDN2_NFC_INPUT)
  refine Tri.bind (tri_u8_to_u32_nfc hI _ _) ?_
  rintro _ _ _ (⟨hk, rfl, rfl⟩ | ⟨e, he, rfl, rfl⟩ | ⟨p, pp, he, rfl, rfl⟩)
  · refine Tri.bind (tri_freeOpt a) ?_
    rintro _ _ _ rfl
    exact Tri.pure ⟨rfl, Or.inl ⟨hk, rfl⟩⟩
  · refine Tri.bind (tri_freeOpt a) ?_
    rintro _ _ _ rfl
    exact Tri.pure ⟨rfl, Or.inr (Or.inl ⟨e, by rw [he]; rfl, rfl⟩)⟩
  · rw [he]
    simp only [Res.bind_ok]
    have hps : ∀ c ∈ p, isScalar c := (hs2 p he).1
    have htest : Tri F ((if has flags IDN2_TRANSITIONAL = true then pure (Except.ok ())
        else label_test E (labelMask flags) p) : HeapM _) (pp :: (a.toList ++ L))
        (Same F (labelTestIf E flags p) (pp :: (a.toList ++ L))) := by
      unfold labelTestIf
      by_cases ht : has flags IDN2_TRANSITIONAL = true
      · rw [if_pos ht, if_pos ht]
        exact Tri.pure ⟨rfl, Or.inr (Or.inr ⟨_, rfl, rfl⟩)⟩
      · rw [if_neg ht, if_neg ht]
        exact tri_label_test (labelTestP_ne_ub hI (fun c hc => isScalar_le (hps c hc)) _)
    refine Tri.bind htest ?_
    rintro _ _ _ ⟨rfl, ⟨hk, rfl⟩ | ⟨e, he', rfl⟩ | ⟨_, he', rfl⟩⟩
    · refine Tri.bind Tri.freeHead ?_
      rintro _ _ _ rfl
      refine Tri.bind (tri_freeOpt a) ?_
      rintro _ _ _ rfl
      exact Tri.pure ⟨rfl, Or.inl ⟨hk, rfl⟩⟩
    · rw [he']
      refine Tri.bind Tri.freeHead ?_
      rintro _ _ _ rfl
      refine Tri.bind (tri_freeOpt a) ?_
      rintro _ _ _ rfl
      exact Tri.pure ⟨rfl, Or.inr (Or.inl ⟨e, rfl, rfl⟩)⟩
    · rw [he']
      simp only [Res.bind_ok]
      refine Tri.bind Tri.touchHead ?_
      rintro _ _ _ rfl
      refine Tri.bind (tri_liftR (labelFinish_ne_ub h0)) ?_
      rintro r _ _ ⟨rfl, hr⟩
      refine Tri.bind Tri.freeHead ?_
      rintro _ _ _ rfl
      refine Tri.bind (tri_freeOpt a) ?_
      rintro _ _ _ rfl
      exact Tri.pure ⟨rfl, Or.inr hr⟩

theorem tri_label {E : Env} {D : Data} (hI : Implements E.T D) (hU : E.U.Laws)
    {src : List Nat} (h0 : 0 ∉ src) (flags : Nat) :
    Tri F (label E src flags : HeapM _) L (Same F (labelP E src flags) L) := by
  unfold label labelP isAce
  by_cases ha : ascii_p src = true
  · rw [if_pos ha, if_pos ha]
    by_cases hx : (!has flags IDN2_NO_ALABEL_ROUNDTRIP && decide (src.length ≥ 4) &&
        src.take 4 == acePrefix) = true
    · rw [if_pos hx, if_pos hx]
      refine Tri.bind (tri_liftR (punycode_decode_ne_ub _ (by omega) (by decide))) ?_
      rintro _ _ _ ⟨rfl, ⟨e, he, rfl⟩ | ⟨u, he, rfl⟩⟩
      · rw [he]
        exact Tri.pure ⟨rfl, Or.inr (Or.inl ⟨e, rfl, rfl⟩)⟩
      · rw [he]
        simp only [Res.bind_ok]
        refine Tri.bind (tri_libConv _) ?_
        rintro _ _ _ (⟨hk, rfl, rfl⟩ | ⟨hf, rfl, rfl⟩ | ⟨src8, p, hf, rfl, rfl⟩)
        · exact Tri.pure ⟨rfl, Or.inl ⟨hk, rfl⟩⟩
        · rw [hf]
          exact Tri.pure ⟨rfl, Or.inr (Or.inl ⟨_, rfl, rfl⟩)⟩
        · rw [hf]
          refine Tri.bind Tri.touchHead ?_
          rintro _ _ _ rfl
          exact tri_labelConvert (a := some p) hI hU (fun s hs => by injection hs with hs; exact hs ▸ h0)
    · rw [if_neg hx, if_neg hx]
      by_cases hl : src.length > 63
      · rw [if_pos hl, if_pos (show src.length > IDN2_LABEL_MAX_LENGTH from hl), if_pos hl]
        exact Tri.pure ⟨rfl, Or.inr (Or.inl ⟨_, rfl, rfl⟩)⟩
      · rw [if_neg hl, if_neg (show ¬ src.length > IDN2_LABEL_MAX_LENGTH from hl), if_neg hl]
        exact Tri.pure ⟨rfl, Or.inr (Or.inr ⟨_, rfl, rfl⟩)⟩
  · rw [if_neg ha, if_neg ha]
    exact tri_labelConvert (a := none) hI hU (fun s hs => by cases hs)

/-! ### `_tr46` -/

/-- The outcome of a label, up to an allocation failure. -/
def SameOpt (F : Nat → Bool) (v : Res (Option Rc)) (L : List Nat) (r : Except Rc (Option Rc))
    (L' : List Nat) : Prop :=
  L' = L ∧ (((∃ k, F k = true) ∧ (r = .error .malloc ∨ (r = .ok (some .malloc) ∧ ∃ a, v = .ok a))) ∨
    (∃ e, v = .err e ∧ r = .error e) ∨ ∃ a, v = .ok a ∧ r = .ok a)

theorem tri_asOpt {E : Env} {what : Nat} {p : List Nat} (h : labelTestP E what p ≠ .ub) :
    Tri F (do
      match ← (label_test E what p : HeapM _) with
      | .error e => pure (.ok (some e))
      | .ok () => pure (.ok none)) L (SameOpt F (asOpt (labelTestP E what p)) L) := by
  refine Tri.bind (tri_label_test h) ?_
  rintro _ _ _ ⟨rfl, ⟨hk, rfl⟩ | ⟨e, he, rfl⟩ | ⟨_, he, rfl⟩⟩
  · refine Tri.pure ⟨rfl, Or.inl ⟨hk, Or.inr ⟨rfl, ?_⟩⟩⟩
    cases hv : labelTestP E what p with
    | ub => exact absurd hv h
    | err e => exact ⟨_, rfl⟩
    | ok _ => exact ⟨_, rfl⟩
  · rw [he]
    exact Tri.pure ⟨rfl, Or.inr (Or.inr ⟨_, rfl, rfl⟩)⟩
  · rw [he]
    exact Tri.pure ⟨rfl, Or.inr (Or.inr ⟨_, rfl, rfl⟩)⟩

theorem tri_tr46Label {E : Env} {D : Data} (hI : Implements E.T D) {lbl : List Nat}
    (hs : ∀ c ∈ lbl, isScalar c) (flags : Nat) :
    Tri F (tr46Label E flags lbl : HeapM _) L (SameOpt F (tr46LabelP E flags lbl) L) := by
  have hne := tr46LabelP_ne_ub hI hs flags
  unfold tr46Label
  unfold tr46LabelP at hne ⊢
  by_cases hx : lbl.length ≥ 4 ∧ lbl.take 4 = acePrefix
  · rw [if_pos hx] at hne ⊢
    rw [if_pos hx]
    refine Tri.bind (tri_libConv _) ?_
    rintro _ _ _ (⟨hk, rfl, rfl⟩ | ⟨hf, rfl, rfl⟩ | ⟨ace, ap, hf, rfl, rfl⟩)
    · exact Tri.pure ⟨rfl, Or.inl ⟨hk, Or.inl rfl⟩⟩
    · rw [hf]
      exact Tri.pure ⟨rfl, Or.inr (Or.inl ⟨_, rfl, rfl⟩)⟩
    · rw [hf] at hne ⊢
      simp only at hne ⊢
      refine Tri.bind Tri.touchHead ?_
      rintro _ _ _ rfl
      refine Tri.bind (tri_liftR (punycode_decode_ne_ub _ (by omega) (by decide))) ?_
      rintro _ _ _ ⟨rfl, ⟨e, he, rfl⟩ | ⟨u, he, rfl⟩⟩
      · rw [he]
        refine Tri.bind Tri.freeHead ?_
        rintro _ _ _ rfl
        exact Tri.pure ⟨rfl, Or.inr (Or.inl ⟨e, rfl, rfl⟩)⟩
      · rw [he] at hne ⊢
        simp only [Res.bind_ok] at hne ⊢
        refine Tri.bind Tri.freeHead ?_
        rintro _ _ _ rfl
        exact tri_asOpt (fun h => hne (by rw [h]; rfl))
  · rw [if_neg hx] at hne ⊢
    rw [if_neg hx]
    exact tri_asOpt (fun h => hne (by unfold tr46Mask; rw [h]; rfl))

/-- The accumulated error: that of the closed form, or IDN2_MALLOC. -/
def ErrLike (F : Nat → Bool) (err err0 : Option Rc) : Prop :=
  err = err0 ∨ ((∃ k, F k = true) ∧ err = some .malloc)

theorem sameOpt_ok {F : Nat → Bool} {L : List Nat} {err err0 : Option Rc} (h : ErrLike F err err0) :
    SameOpt F (.ok err0) L (.ok err) L := by
  rcases h with rfl | ⟨hk, rfl⟩
  · exact ⟨rfl, Or.inr (Or.inr ⟨_, rfl, rfl⟩)⟩
  · exact ⟨rfl, Or.inl ⟨hk, Or.inr ⟨rfl, _, rfl⟩⟩⟩

theorem tri_tr46Labels {E : Env} {D : Data} (hI : Implements E.T D) (hU : E.U.Laws)
    (flags dp : Nat) {x : List Nat} (h0 : 0 ∉ x) (hs : ∀ c ∈ x, isScalar c)
    {err err0 : Option Rc} (he : ErrLike F err err0) (hL : dp ∈ L) :
    Tri F (tr46Labels E flags dp (x ++ [0]) err : HeapM _) L
      (SameOpt F (tr46LabelsP E flags (splitDot x) err0) L) := by
  generalize hn : x.length = n
  induction n using Nat.strongRecOn generalizing x err err0 with
  | _ n ih =>
    obtain ⟨ht, hd⟩ := takeWhile_isEnd h0
    rw [tr46Labels.eq_def, splitDot_eq]
    have htake : ∀ c ∈ x.takeWhile (· != 0x2E), isScalar c :=
      fun c hc => hs c ((List.takeWhile_prefix _).subset hc)
    cases hx : x.dropWhile (· != 0x2E) with
    | nil =>
      split
      · rename_i h
        rw [hd, hx] at h; simp at h
      · rename_i c rest h
        rw [hd, hx] at h
        injection h with h1 h2
        subst h1
        refine Tri.bind (Tri.touch hL) ?_
        rintro _ _ _ rfl
        cases x with
        | nil =>
          simp only [tr46LabelsP, List.takeWhile_nil, tr46LabelP_nil hI hU, Res.bind_ok]
          exact Tri.pure (sameOpt_ok he)
        | cons c x =>
          rw [List.mem_cons, not_or] at h0
          rw [if_neg, ht]
          · refine Tri.bind (tri_tr46Label hI htake flags) ?_
            simp only [tr46LabelsP]
            rintro _ _ _ ⟨rfl, ⟨hk, rfl | ⟨rfl, a, ha⟩⟩ | ⟨e, he', rfl⟩ | ⟨rc, he', rfl⟩⟩
            · exact Tri.pure ⟨rfl, Or.inl ⟨hk, Or.inl rfl⟩⟩
            · rw [ha]
              refine Tri.pure ⟨rfl, Or.inl ⟨hk, Or.inr ⟨rfl, ?_⟩⟩⟩
              simp only [Res.bind_ok]
              cases a <;> exact ⟨_, rfl⟩
            · rw [he']
              exact Tri.pure ⟨rfl, Or.inr (Or.inl ⟨e, rfl, rfl⟩)⟩
            · rw [he']
              simp only [Res.bind_ok]
              cases rc with
              | some e => exact Tri.pure ⟨rfl, Or.inr (Or.inr ⟨_, rfl, rfl⟩)⟩
              | none => exact Tri.pure (sameOpt_ok he)
          · simp only [List.cons_append, List.head?_cons, Option.some.injEq]
            exact fun h => h0.1 h.symm
    | cons c0 rest0 =>
      have hc0 : c0 = 0x2E := by
        have := List.head_dropWhile_not (p := (· != 0x2E)) (l := x) (by rw [hx]; simp)
        simp only [hx, List.head_cons] at this
        simpa using this
      have hmem : ∀ c ∈ rest0, c ∈ x := by
        intro c hc
        rw [← List.takeWhile_append_dropWhile (p := (· != 0x2E)) (l := x), hx]
        exact List.mem_append_right _ (List.mem_cons_of_mem _ hc)
      have hlen := dropWhile_length_le (· != 0x2E) x
      rw [hx, List.length_cons] at hlen
      split
      · rename_i h
        rw [hd, hx] at h; simp at h
      · rename_i c rest h
        rw [hd, hx] at h
        injection h with h1 h2
        subst h1
        have h2 : rest = rest0 ++ [0] := h2.symm
        subst h2
        refine Tri.bind (Tri.touch hL) ?_
        rintro _ _ _ rfl
        rw [if_neg, ht]
        · refine Tri.bind (tri_tr46Label hI htake flags) ?_
          have hrec : ∀ {err err0 : Option Rc}, ErrLike F err err0 → _ := fun he' =>
            ih rest0.length (by omega) (fun h => h0 (hmem 0 h)) (fun c hc => hs c (hmem c hc)) he' rfl
          simp only [tr46LabelsP]
          rintro _ _ _ ⟨rfl, ⟨hk, rfl | ⟨rfl, a, ha⟩⟩ | ⟨e, he', rfl⟩ | ⟨rc, he', rfl⟩⟩
          · exact Tri.pure ⟨rfl, Or.inl ⟨hk, Or.inl rfl⟩⟩
          · simp only
            rw [if_neg (by omega)]
            rw [ha]
            simp only [Res.bind_ok]
            exact hrec (Or.inr ⟨hk, rfl⟩)
          · rw [he']
            exact Tri.pure ⟨rfl, Or.inr (Or.inl ⟨e, rfl, rfl⟩)⟩
          · rw [he']
            simp only [Res.bind_ok]
            rw [if_neg (by omega)]
            cases rc with
            | some e => exact hrec (Or.inl rfl)
            | none => exact hrec he
        · cases x with
          | nil => simp at hx
          | cons c x =>
            rw [List.mem_cons, not_or] at h0
            simp only [List.cons_append, List.head?_cons, Option.some.injEq]
            exact fun h => h0.1 h.symm

theorem tri_tr46 {E : Env} {D : Data} (hI : Implements E.T D) (hU : E.U.Laws) (hD : D.Laws)
    (flags : Nat) {s : List Nat} (h0 : 0 ∉ s) :
    Tri F (tr46 E s flags : HeapM _) L
      (Owned F ((tr46P E D flags s) >>= fun o => .ok (o ++ [0])) L) := by
  unfold tr46 tr46P
  rw [u8Decode_append_ascii (by omega) h0, u8Decode_nil]
  refine Tri.bind (tri_libConv _) ?_
  rintro _ _ _ (⟨hk, rfl, rfl⟩ | ⟨hf, rfl, rfl⟩ | ⟨u', dp, hf, rfl, rfl⟩)
  · exact Tri.pure (Or.inl ⟨hk, rfl, rfl⟩)
  · cases hu : u8Decode s with
    | none => exact Tri.pure (Or.inr (Or.inl ⟨_, rfl, rfl, rfl⟩))
    | some u => rw [hu] at hf; simp at hf
  cases hu : u8Decode s with
  | none => rw [hu] at hf; simp at hf
  | some u =>
    rw [hu] at hf
    simp only [Option.bind_some, Option.map_some, Option.some.injEq] at hf
    subst hf
    have hus := u8Decode_isScalar hu
    have hule : ∀ c ∈ u, c ≤ 0x10FFFF := fun c hc => isScalar_le (hus c hc)
    have hu0 : 0 ∉ u := fun h => h0 ((u8Decode_zero hu).mpr h)
    simp only [List.dropLast_concat]
    refine Tri.bind Tri.touchHead ?_
    rintro _ _ _ rfl
    rw [tr46Pass1_eq hI flags hule hu0]
    by_cases hdis : ∃ c ∈ u, D.status c = .disallowed
    · rw [if_pos hdis, if_pos hdis]
      refine Tri.bind (tri_liftR (by simp)) ?_
      rintro _ _ _ ⟨rfl, ⟨e, he, rfl⟩ | ⟨n, he, _⟩⟩
      case inr => cases he
      injection he with he
      subst he
      refine Tri.bind Tri.freeHead ?_
      rintro _ _ _ rfl
      exact Tri.pure (Or.inr (Or.inl ⟨_, rfl, rfl, rfl⟩))
    rw [if_neg hdis, if_neg hdis]
    simp only [Nat.zero_add]
    refine Tri.bind (tri_liftR (by simp)) ?_
    rintro _ _ _ ⟨rfl, ⟨e, he, _⟩ | ⟨n, he, rfl⟩⟩
    · cases he
    injection he with he
    subst he
    simp only
    rw [show IDN2_DOMAIN_MAX_LENGTH = 255 from rfl]
    by_cases hlen : (mapText D flags u).length ≥ 255
    · rw [if_pos hlen, if_pos hlen]
      refine Tri.bind Tri.freeHead ?_
      rintro _ _ _ rfl
      exact Tri.pure (Or.inr (Or.inl ⟨_, rfl, rfl, rfl⟩))
    rw [if_neg hlen, if_neg hlen]
    refine Tri.bind Tri.malloc ?_
    rintro _ _ hn (⟨hk, rfl, rfl⟩ | ⟨tp, rfl, rfl⟩)
    · refine Tri.bind Tri.freeHead ?_
      rintro _ _ _ rfl
      exact Tri.pure (Or.inl ⟨hk, rfl, rfl⟩)
    refine Tri.bind (Tri.touch (by simp)) ?_
    rintro _ _ _ rfl
    refine Tri.bind Tri.touchHead ?_
    rintro _ _ _ rfl
    rw [tr46Pass2_eq hI flags _ hule [] (by simp), List.nil_append]
    refine Tri.bind (tri_liftR (by simp)) ?_
    rintro _ _ _ ⟨rfl, ⟨e, he, _⟩ | ⟨n, he, rfl⟩⟩
    · cases he
    injection he with he
    subst he
    simp only
    rw [if_neg (by omega)]
    have hsep := hU.nfc_sep (mapText D flags u) 0 [] (Or.inl rfl)
    rw [hU.nfc_ascii [] (by simp)] at hsep
    have ht0 := zero_mem_mapText hD flags hu0
    rw [hsep]
    refine Tri.bind (Tri.freeSecond hn) ?_
    rintro _ _ _ rfl
    refine Tri.bind Tri.touchHead ?_
    rintro _ _ _ rfl
    refine Tri.bind (tri_libConv _) ?_
    rintro _ _ hn' (⟨hk, rfl, rfl⟩ | ⟨hf, rfl, rfl⟩ | ⟨x', xp, hf, rfl, rfl⟩)
    · refine Tri.bind Tri.freeHead ?_
      rintro _ _ _ rfl
      exact Tri.pure (Or.inl ⟨hk, rfl, rfl⟩)
    · cases hx : E.U.nfc (mapText D flags u) with
      | none =>
        refine Tri.bind Tri.freeHead ?_
        rintro _ _ _ rfl
        exact Tri.pure (Or.inr (Or.inl ⟨_, rfl, rfl, rfl⟩))
      | some x => rw [hx] at hf; simp at hf
    refine Tri.bind (Tri.freeSecond hn') ?_
    rintro _ _ _ rfl
    cases hx : E.U.nfc (mapText D flags u) with
    | none => rw [hx] at hf; simp at hf
    | some x =>
      rw [hx] at hf
      simp only [Option.bind_some, Option.map_some, Option.some.injEq] at hf
      subst hf
      have hx0 : 0 ∉ x := hU.nfc_nosep _ x 0 (Or.inl rfl) ht0 hx
      have hxs : ∀ c ∈ x, isScalar c := hU.nfc_scalar _ _ (mapText_scalar hD flags hus) hx
      simp only
      refine Tri.bind (tri_tr46Labels hI hU flags xp hx0 hxs (Or.inl rfl) (by simp)) ?_
      rintro _ _ _ ⟨rfl, ⟨hk, rfl | ⟨rfl, _⟩⟩ | ⟨e, he', rfl⟩ | ⟨rc, he', rfl⟩⟩
      · refine Tri.bind Tri.freeHead ?_
        rintro _ _ _ rfl
        exact Tri.pure (Or.inl ⟨hk, rfl, rfl⟩)
      · refine Tri.bind Tri.freeHead ?_
        rintro _ _ _ rfl
        exact Tri.pure (Or.inl ⟨hk, rfl, rfl⟩)
      · rw [he']
        refine Tri.bind Tri.freeHead ?_
        rintro _ _ _ rfl
        exact Tri.pure (Or.inr (Or.inl ⟨_, rfl, rfl, rfl⟩))
      · rw [he']
        simp only [Res.bind_ok]
        cases rc with
        | some e =>
          refine Tri.bind Tri.freeHead ?_
          rintro _ _ _ rfl
          exact Tri.pure (Or.inr (Or.inl ⟨_, rfl, rfl, rfl⟩))
        | none =>
          simp only
          refine Tri.bind Tri.touchHead ?_
          rintro _ _ _ rfl
          rw [u8Encode_append]
          refine Tri.bind (tri_libConv _) ?_
          rintro _ _ hn'' (⟨hk, rfl, rfl⟩ | ⟨hf, rfl, rfl⟩ | ⟨o', op, hf, rfl, rfl⟩)
          · refine Tri.bind Tri.freeHead ?_
            rintro _ _ _ rfl
            exact Tri.pure (Or.inl ⟨hk, rfl, rfl⟩)
          · cases ho : u8Encode x with
            | none =>
              refine Tri.bind Tri.freeHead ?_
              rintro _ _ _ rfl
              exact Tri.pure (Or.inr (Or.inl ⟨_, rfl, rfl, rfl⟩))
            | some o => rw [ho] at hf; simp [u8Encode, u8_uctomb] at hf
          · cases ho : u8Encode x with
            | none => rw [ho] at hf; simp at hf
            | some o =>
              rw [ho] at hf
              simp only [u8Encode, u8_uctomb, Option.bind_some] at hf
              simp at hf
              subst hf
              refine Tri.bind (Tri.freeSecond hn'') ?_
              rintro _ _ _ rfl
              exact Tri.pure (Or.inr (Or.inr ⟨_, _, rfl, rfl, rfl⟩))

/-! ### `idn2_lookup_u8` -/

/-- After the label loop: on failure the block `a` has been freed. -/
def LoopEnds (F : Nat → Bool) (v : Res (List Nat)) (a : Option Nat) (L : List Nat)
    (r : Except Rc (List Nat)) (L' : List Nat) : Prop :=
  ((∃ k, F k = true) ∧ r = .error .malloc ∧ L' = L) ∨ (∃ e, v = .err e ∧ r = .error e ∧ L' = L) ∨
    ∃ n, v = .ok n ∧ r = .ok n ∧ L' = a.toList ++ L

theorem tri_lookupLoop {E : Env} {D : Data} (hI : Implements E.T D) (hU : E.U.Laws) (flags : Nat)
    (a : Option Nat) {src : List Nat} (h0 : 0 ∉ src) (name : List Nat) :
    Tri F (lookupLoop E flags a src name : HeapM _) (a.toList ++ L)
      (LoopEnds F (loopL E flags (splitDot src) name) a L) := by
  generalize hn : src.length = n
  induction n using Nat.strongRecOn generalizing src name with
  | _ n ih =>
    rw [lookupLoop.eq_def, splitDot_eq]
    refine Tri.bind (tri_touchOpt a) ?_
    rintro _ _ _ rfl
    have hfree : ∀ {v : Res (List Nat)} {e : Rc}, v = .err e ∨ ((∃ k, F k = true) ∧ e = .malloc) →
        Tri F (do freeOpt a; pure (.error e) : HeapM (Except Rc (List Nat))) (a.toList ++ L)
          (LoopEnds F v a L) := by
      rintro v e h
      refine Tri.bind (tri_freeOpt a) ?_
      rintro _ _ _ rfl
      refine Tri.pure ?_
      rcases h with h | ⟨h, rfl⟩
      · exact Or.inr (Or.inl ⟨e, h, rfl, rfl⟩)
      · exact Or.inl ⟨h, rfl, rfl⟩
    have ht0 : 0 ∉ src.takeWhile (· != 0x2E) := fun h => h0 ((List.takeWhile_prefix _).subset h)
    refine Tri.bind (tri_label hI hU ht0 flags) ?_
    rw [show IDN2_DOMAIN_MAX_LENGTH = 255 from rfl]
    cases hd : src.dropWhile (· != 0x2E) with
    | nil =>
      simp only [loopL]
      rintro _ _ _ ⟨rfl, ⟨hk, rfl⟩ | ⟨e, he, rfl⟩ | ⟨tmp, he, rfl⟩⟩
      · exact hfree (Or.inr ⟨hk, rfl⟩)
      · rw [he]
        exact hfree (Or.inl rfl)
      · rw [he]
        simp only [Res.bind_ok]
        by_cases hle : name.length + tmp.length > 255 - (if tmp.length = 0 then 1 else 2)
        · rw [if_pos hle, if_pos hle]
          exact hfree (Or.inl rfl)
        · rw [if_neg hle, if_neg hle, if_neg (by split at hle <;> omega)]
          exact Tri.pure (Or.inr (Or.inr ⟨_, rfl, rfl, rfl⟩))
    | cons c rest =>
      simp only
      rw [loopL_cons (splitDot_ne_nil rest)]
      rintro _ _ _ ⟨rfl, ⟨hk, rfl⟩ | ⟨e, he, rfl⟩ | ⟨tmp, he, rfl⟩⟩
      · exact hfree (Or.inr ⟨hk, rfl⟩)
      · rw [he]
        exact hfree (Or.inl rfl)
      · rw [he]
        simp only [Res.bind_ok]
        by_cases hle : name.length + tmp.length > 253
        · rw [if_pos hle, if_pos hle]
          exact hfree (Or.inl rfl)
        · rw [if_neg hle, if_neg hle, if_neg (by omega), if_neg (by omega), if_neg (by omega)]
          have := dropWhile_length_le (· != 0x2E) src
          rw [hd, List.length_cons] at this
          refine ih rest.length (by omega) (fun h => h0 ?_) _ rfl
          rw [← List.takeWhile_append_dropWhile (p := (· != 0x2E)) (l := src), hd]
          exact List.mem_append_right _ (List.mem_cons_of_mem _ h)

/-- An entry point is done: IDN2_MALLOC after a failed allocation, or the outcome `v`.  The
output is changed and a block kept only if the conversion succeeds and `out` is not null. -/
def Ends (F : Nat → Bool) (v : Res (List Nat)) (out : Option Cell) (L : List Nat)
    (r : Option Rc × Option Cell) (L' : List Nat) : Prop :=
  ((∃ k, F k = true) ∧ r = (some .malloc, out) ∧ L' = L) ∨
  (∃ e, v = .err e ∧ r = (some e, out) ∧ L' = L) ∨
  (∃ n, v = .ok n ∧ out = none ∧ r = (none, none) ∧ L' = L) ∨
  ∃ n c p, v = .ok n ∧ out = some c ∧ r = (none, some (.buf p n)) ∧ L' = p :: L

theorem tri_storeDup (s : List Nat) (out : Option Cell) :
    Tri F (storeDup s out : HeapM _) L (Ends F (.ok s) out L) := by
  unfold storeDup
  cases out with
  | none => exact Tri.pure (Or.inr (Or.inr (Or.inl ⟨_, rfl, rfl, rfl, rfl⟩)))
  | some c =>
    refine Tri.bind Tri.malloc ?_
    rintro _ _ _ (⟨hk, rfl, rfl⟩ | ⟨p, rfl, rfl⟩)
    · exact Tri.pure (Or.inl ⟨hk, rfl, rfl⟩)
    · exact Tri.pure (Or.inr (Or.inr (Or.inr ⟨_, _, _, rfl, rfl, rfl, rfl⟩)))

theorem tri_lookup_u8 {E : Env} {D : Data} (hI : Implements E.T D) (hU : E.U.Laws) (hD : D.Laws)
    (flags : Nat) {s : List Nat} (h0 : 0 ∉ s) (out : Option Cell) :
    Tri F (idn2_lookup_u8 E (some s) out flags : HeapM _) L (Ends F (lookupF E D flags s) out L) := by
  unfold idn2_lookup_u8 lookupF
  cases set_default_flags flags with
  | error e => exact Tri.pure (Or.inr (Or.inl ⟨e, rfl, rfl, rfl⟩))
  | ok f =>
    simp only
    have hfin : ∀ {src : List Nat} (a : Option Nat), 0 ∉ src →
        Tri F (do
          match ← (lookupLoop E f a src [] : HeapM _) with
          | .error e => pure (some e, out)
          | .ok name => do
            freeOpt a
            match out with
            | none => pure (none, none)
            | some _ =>
              match ← malloc with
              | none => pure (some .malloc, out)
              | some p => pure (none, some (.buf p name))) (a.toList ++ L)
          (Ends F (loopL E f (splitDot src) []) out L) := by
      intro src a h0
      refine Tri.bind (tri_lookupLoop hI hU f a h0 []) ?_
      rintro _ _ _ (⟨hk, rfl, rfl⟩ | ⟨e, he, rfl, rfl⟩ | ⟨n, he, rfl, rfl⟩)
      · exact Tri.pure (Or.inl ⟨hk, rfl, rfl⟩)
      · rw [he]
        exact Tri.pure (Or.inr (Or.inl ⟨e, rfl, rfl, rfl⟩))
      · rw [he]
        refine Tri.bind (tri_freeOpt a) ?_
        rintro _ _ _ rfl
        exact tri_storeDup n out
    unfold lookupSource lookupP
    cases hf : has f IDN2_NO_TR46 with
    | true =>
      simp only [Bool.not_true, Bool.false_eq_true, ↓reduceIte, Res.bind_ok]
      exact hfin none h0
    | false =>
      simp only [Bool.not_false, ↓reduceIte, Bool.false_eq_true]
      have : Tri F (do
          match ← (tr46 E s f : HeapM _) with
          | .error e => pure (.error e)
          | .ok (out, op) => pure (.ok (cstr out, some op)) : HeapM (Except Rc (Option (List Nat) × Option Nat))) L
          (fun r L' => ((∃ k, F k = true) ∧ r = .error .malloc ∧ L' = L) ∨
            (∃ e, tr46P E D f s = .err e ∧ r = .error e ∧ L' = L) ∨
            ∃ o p, tr46P E D f s = .ok o ∧ 0 ∉ o ∧ r = .ok (some o, some p) ∧ L' = p :: L) := by
        refine Tri.bind (tri_tr46 hI hU hD f h0) ?_
        rintro _ _ _ (⟨hk, rfl, rfl⟩ | ⟨e, he, rfl, rfl⟩ | ⟨o, p, he, rfl, rfl⟩)
        · exact Tri.pure (Or.inl ⟨hk, rfl, rfl⟩)
        · refine Tri.pure (Or.inr (Or.inl ⟨e, ?_, rfl, rfl⟩))
          cases hv : tr46P E D f s with
          | ub => rw [hv] at he; cases he
          | err e' => rw [hv] at he; injection he with he; rw [he]
          | ok o => rw [hv] at he; cases he
        · obtain ⟨o', ho, he⟩ := Res.bind_eq_ok.mp he
          injection he with he
          subst he
          have ho0 := tr46P_zero hU hD h0 ho
          simp only [cstr_append ho0]
          exact Tri.pure (Or.inr (Or.inr ⟨_, _, ho, ho0, rfl, rfl⟩))
      refine Tri.bind this ?_
      rintro _ _ _ (⟨hk, rfl, rfl⟩ | ⟨e, he, rfl, rfl⟩ | ⟨o, p, he, ho0, rfl, rfl⟩)
      · exact Tri.pure (Or.inl ⟨hk, rfl, rfl⟩)
      · rw [he]
        exact Tri.pure (Or.inr (Or.inl ⟨e, rfl, rfl, rfl⟩))
      · rw [he]
        exact hfin (some p) ho0

end Idn2
