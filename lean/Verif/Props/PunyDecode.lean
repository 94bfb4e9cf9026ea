import Verif.Proof.PunyDecExact
import Verif.Props.PunyIff

/-
Property C62: the outcome of the Punycode decoder for every string, error codes included.
-/

namespace Idn2
open Spec

theorem digitOf_eq {c : Nat} (h : isLDHU c) (hd : c ≠ 0x2D) : Punycode.digitOf c = decode_digit c := by
  rw [Punycode.digitOf, canonChar_eq ((decBasic_iff c).mpr h) hd]
  have := decode_digit_lt c
  generalize decode_digit c = d at *
  unfold Punycode.digitChar
  split
  · rw [if_neg (by omega)]; omega
  · rw [if_pos (by omega)]; omega

theorem map_digitOf {l : List Nat} (h : ∀ c ∈ l, isLDHU c) (hd : 0x2D ∉ l) :
    l.map Punycode.digitOf = l.map decode_digit := by
  apply List.map_congr_left
  intro c hc
  exact digitOf_eq (h c hc) (fun e => hd (e ▸ hc))

theorem decInv_init {bs : List Nat} (h : ∀ c ∈ bs, isLDHU c) :
    DecInv bs.length (Punycode.init bs.length) 0x80 0 72 bs := by
  refine ⟨rfl, rfl, rfl, by simp [Punycode.init], Punycode.Ok.init ?_, by simp [Punycode.init],
    by simp [Punycode.init], by simp [Punycode.init]⟩
  intro x hx
  exact decBasic_lt ((decBasic_iff x).mpr (h x hx))

theorem decScan_none {l : List Nat} (j b : Nat) (h : ∃ c ∈ l, ¬ isLDHU c) : decScan l j b = none := by
  cases hr : decScan l j b with
  | none => rfl
  | some r =>
    obtain ⟨c, hc, hn⟩ := h
    exact absurd ((decBasic_iff c).mp ((decScan_spec _ _ _ _ hr).1 c hc)) hn

/-- The decoder on a string with a delimiter. -/
theorem punycode_decode_delim {phys cap : Nat} {bs ds : List Nat} (hp : cap ≤ phys)
    (hc : cap < maxint) (h : ∀ c ∈ bs ++ 0x2D :: ds, isLDHU c) (hd : 0x2D ∉ ds) :
    punycode_decode phys cap (bs ++ 0x2D :: ds) =
      if bs = [] ∨ ds = [] then .err .punycodeBadInput
      else if cap ≤ bs.length then .err .punycodeBigOutput
      else decLoop phys cap (bs ++ 0x2D :: ds).length ds 0x80 0 72 bs := by
  obtain ⟨r, hr⟩ := decScan_of_basic (bs ++ 0x2D :: ds) 0 0
    (fun c hc => (decBasic_iff c).mpr (h c hc))
  obtain ⟨_, s2⟩ := decScan_spec _ _ _ _ hr
  have hrl : r = bs.length := by
    rcases s2 with ⟨_, s3⟩ | ⟨pre, post, s3, s4, s5⟩
    · exact absurd rfl (s3 0x2D (by simp))
    · obtain ⟨rfl, rfl⟩ := last_hyphen_unique s3 hd (fun hm => s5 _ hm rfl)
      omega
  subst hrl
  unfold punycode_decode
  rw [if_neg (by simp), hr]
  simp only
  rw [if_neg (show ¬ cap > maxint by omega), if_pos (by simp)]
  have e1 : (bs.length = 0 ∨ bs.length = (bs ++ 0x2D :: ds).length - 1) ↔ (bs = [] ∨ ds = []) := by
    rw [← List.length_eq_zero_iff, ← List.length_eq_zero_iff, List.length_append, List.length_cons]
    omega
  by_cases h1 : bs = [] ∨ ds = []
  · rw [if_pos (e1.mpr h1), if_pos h1]
  · rw [if_neg (fun h => h1 (e1.mp h)), if_neg h1]
    by_cases h2 : cap ≤ bs.length
    · rw [if_pos h2, if_pos h2]
    · rw [if_neg h2, if_neg h2, if_pos (by omega)]
      simp

/-- The decoder on a string without delimiter. -/
theorem punycode_decode_plain {phys cap : Nat} {t : List Nat} (hc : cap < maxint) (hne : t ≠ [])
    (h : ∀ c ∈ t, isLDHU c) (hd : 0x2D ∉ t) :
    punycode_decode phys cap t = decLoop phys cap t.length t 0x80 0 72 [] := by
  obtain ⟨r, hr⟩ := decScan_of_basic t 0 0 (fun c hc => (decBasic_iff c).mpr (h c hc))
  obtain ⟨_, s2⟩ := decScan_spec _ _ _ _ hr
  have hr0 : r = 0 := by
    rcases s2 with ⟨s3, _⟩ | ⟨pre, post, s3, s4, s5⟩
    · exact s3
    · exact absurd (by rw [s3]; simp) hd
  subst hr0
  unfold punycode_decode
  rw [if_neg (by rw [List.length_eq_zero_iff]; exact hne), hr]
  simp only
  rw [if_neg (show ¬ cap > maxint by omega), if_neg (fun hx => hd (List.mem_of_getElem? hx))]
  rfl

/-- Every string has an outcome. -/
theorem decoding_total (cap : Nat) (hc : cap < maxint) (t : List Nat) :
    ∃ y, Punycode.Decoding cap t y := by
  by_cases h0 : t = []
  · exact ⟨_, .empty h0⟩
  by_cases h : ∀ c ∈ t, isLDHU c
  · rcases last_hyphen t with hd | ⟨bs, ds, rfl, hd⟩
    · obtain ⟨y, hy⟩ := decLoop_runs (phys := cap) (Nat.le_refl _) hc _ t _ _ _ _ _ (Nat.le_refl _)
        (decInv_init (bs := []) (by simp)) (by simp) (by simp)
      exact ⟨y, .plain y h0 h hd (by rw [map_digitOf h hd]; exact hy)⟩
    · by_cases h1 : bs = [] ∨ ds = []
      · exact ⟨_, .edge h ⟨bs, ds, rfl, hd, h1⟩⟩
      · have h1' : bs ≠ [] ∧ ds ≠ [] := by
          constructor <;> intro hx <;> exact h1 (by simp [hx])
        by_cases h2 : cap ≤ bs.length
        · exact ⟨_, .full bs ds h rfl hd h1'.1 h1'.2 h2⟩
        · obtain ⟨y, hy⟩ := decLoop_runs (phys := cap) (Nat.le_refl _) hc _ ds _ _ _ _ _
            (Nat.le_refl _) (decInv_init (bs := bs) (fun c hc => h c (by simp [hc])))
            (by simp [Punycode.init]) (by omega)
          exact ⟨y, .delimited bs ds y h rfl hd h1'.1 h1'.2 (by omega)
            (by rw [map_digitOf (fun c hc => h c (by simp [hc])) hd]; exact hy)⟩
  · refine ⟨_, .char ?_⟩
    rcases Classical.not_forall.mp h with ⟨c, hc⟩
    rcases Classical.not_forall.mp hc with ⟨hm, hn⟩
    exact ⟨c, hm, hn⟩

/-- What the specification says is what the decoder does. -/
theorem decoding_is {phys cap : Nat} {t : List Nat} {y : Except Rc (List Nat)} (hp : cap ≤ phys)
    (hc : cap < maxint) (h : Punycode.Decoding cap t y) : (punycode_decode phys cap t).Is y := by
  cases h with
  | empty h => subst h; rfl
  | char h =>
    have : t.length ≠ 0 := by
      obtain ⟨c, hm, _⟩ := h
      exact Nat.ne_of_gt (List.length_pos_of_mem hm)
    unfold punycode_decode
    rw [if_neg this, decScan_none 0 0 h]
    rfl
  | edge h he =>
    obtain ⟨bs, ds, rfl, hd, h1⟩ := he
    rw [punycode_decode_delim hp hc h hd, if_pos h1]
    rfl
  | full bs ds h e hd h1 h2 h3 =>
    subst e
    rw [punycode_decode_delim hp hc h hd, if_neg (by simp [h1, h2]), if_pos h3]
    rfl
  | delimited bs ds y h e hd h1 h2 h3 hr =>
    subst e
    rw [punycode_decode_delim hp hc h hd, if_neg (by simp [h1, h2]), if_neg (by omega)]
    rw [map_digitOf (fun c hc => h c (by simp [hc])) hd] at hr
    exact decLoop_exact hp hc hr _ _ _ _ _ rfl (by simp; omega)
      (decInv_init (fun c hc => h c (by simp [hc]))) (by simp [Punycode.init]) (by omega)
  | plain y h1 h hd hr =>
    rw [punycode_decode_plain hc h1 h hd]
    rw [map_digitOf h hd] at hr
    exact decLoop_exact hp hc hr _ _ _ _ _ rfl (Nat.le_refl _)
      (decInv_init (bs := []) (by simp)) (by simp) (by simp)

/-- **C62.** The decoder's outcome, for every string and every size of the output below
2^32 - 1. -/
theorem C62_decode_exact {phys cap : Nat} (t : List Nat) (y : Except Rc (List Nat)) (hp : cap ≤ phys)
    (hc : cap < 4294967295) :
    Punycode.Decoding cap t y ↔
      punycode_decode phys cap t = (match y with | .ok u => .ok u | .error e => .err e) := by
  have conv {y : Except Rc (List Nat)} : (punycode_decode phys cap t).Is y ↔
      punycode_decode phys cap t = (match y with | .ok u => .ok u | .error e => .err e) := by
    cases y <;> rfl
  rw [← conv]
  constructor
  · exact decoding_is hp hc
  · intro h
    obtain ⟨y', hy⟩ := decoding_total cap hc t
    have h' := decoding_is hp hc hy
    have : y = y' := by
      cases y <;> cases y' <;> simp only [Res.Is] at h h' <;> rw [h] at h' <;> cases h' <;> rfl
    rw [this]; exact hy

/-- **C62.** Every string has exactly one outcome. -/
theorem C62_unique {cap : Nat} (t : List Nat) (hc : cap < 4294967295) :
    ∃ y, Punycode.Decoding cap t y ∧ ∀ z, Punycode.Decoding cap t z → z = y := by
  obtain ⟨y, hy⟩ := decoding_total cap hc t
  refine ⟨y, hy, fun z hz => ?_⟩
  have h := decoding_is (Nat.le_refl _) hc hy
  have h' := decoding_is (Nat.le_refl _) hc hz
  cases y <;> cases z <;> simp only [Res.Is] at h h' <;> rw [h] at h' <;> cases h' <;> rfl

/-! Concrete cases: `bcher-kva` is decoded into `bücher` if there is room for six code points;
`99999999` is too large; `99999b` gives a code point that is not one of Unicode; `a-` is
refused because there is no digit, and `a-A.` because of the full stop. -/

example : Punycode.Decoding 6 [0x62, 0x63, 0x68, 0x65, 0x72, 0x2D, 0x6B, 0x76, 0x61]
    (.ok [0x62, 0xFC, 0x63, 0x68, 0x65, 0x72]) :=
  (C62_decode_exact (phys := 63) _ _ (by decide) (by decide)).mpr (by decide +kernel)

example : Punycode.Decoding 5 [0x62, 0x63, 0x68, 0x65, 0x72, 0x2D, 0x6B, 0x76, 0x61]
    (.error .punycodeBigOutput) :=
  (C62_decode_exact (phys := 63) _ _ (by decide) (by decide)).mpr (by decide +kernel)

example : Punycode.Decoding 63 [0x39, 0x39, 0x39, 0x39, 0x39, 0x39, 0x39, 0x39]
    (.error .punycodeOverflow) :=
  (C62_decode_exact (phys := 63) _ _ (by decide) (by decide)).mpr (by decide +kernel)

example : Punycode.Decoding 63 [0x39, 0x39, 0x39, 0x39, 0x39, 0x62] (.error .punycodeBadInput) :=
  (C62_decode_exact (phys := 63) _ _ (by decide) (by decide)).mpr (by decide +kernel)

example : Punycode.Decoding 63 [0x61, 0x2D] (.error .punycodeBadInput) :=
  .edge (by unfold isLDHU; decide) ⟨[0x61], [], rfl, by decide, Or.inr rfl⟩

example : Punycode.Decoding 63 [0x61, 0x2D, 0x41, 0x2E] (.error .punycodeBadInput) :=
  .char ⟨0x2E, by decide, by unfold isLDHU; decide⟩

/-- The decoder itself, through the other direction: nothing else than this error. -/
example : punycode_decode 63 63 [0x61, 0x2D, 0x41, 0x2E] = .err .punycodeBadInput :=
  (C62_decode_exact _ (.error _) (by decide) (by decide)).mp (.char ⟨0x2E, by decide, by unfold isLDHU; decide⟩)

end Idn2
