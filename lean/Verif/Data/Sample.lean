import Verif.Data.Map
import Verif.Data.Csv
import Verif.Proof.DataLaws

/-
A small environment for the concrete cases beside the theorems: data files which agree
with those of the repository up to U+00FF and are coarse beyond, and a toy version of the
Unicode functions.
-/

namespace Idn2.Sample

/-- The first lines of the property file, then some interesting code points. -/
def csv : List CsvRow := Shipped.csv0.take 12 ++ [
  ⟨0x100, 0x100, .disallowed⟩, ⟨0x101, 0x101, .pvalid⟩, ⟨0x300, 0x33F, .pvalid⟩,
  ⟨0x340, 0x341, .disallowed⟩, ⟨0x375, 0x375, .contexto⟩, ⟨0x3B1, 0x3C9, .pvalid⟩,
  ⟨0x5D0, 0x5EA, .pvalid⟩, ⟨0x5F3, 0x5F4, .contexto⟩, ⟨0x620, 0x63F, .pvalid⟩,
  ⟨0x660, 0x669, .contexto⟩, ⟨0x6F0, 0x6F9, .contexto⟩, ⟨0x915, 0x939, .pvalid⟩,
  ⟨0x94D, 0x94D, .pvalid⟩, ⟨0x200C, 0x200D, .contextj⟩, ⟨0x3002, 0x3002, .disallowed⟩,
  ⟨0x3041, 0x3096, .pvalid⟩, ⟨0x30FB, 0x30FB, .contexto⟩, ⟨0xD800, 0xDFFF, .disallowed⟩,
  ⟨0x20000, 0x2A6DF, .pvalid⟩]

/-- The first lines of the mapping file, then some interesting code points. -/
def map : List MapRow := Shipped.map0.take 94 ++ [
  ⟨0x100, 0x100, .mapped, [0x101]⟩, ⟨0x101, 0x33F, .valid, []⟩, ⟨0x340, 0x340, .mapped, [0x300]⟩,
  ⟨0x341, 0x200B, .valid, []⟩, ⟨0x200C, 0x200D, .deviation, []⟩, ⟨0x200E, 0x3001, .valid, []⟩,
  ⟨0x3002, 0x3002, .mapped, [0x2E]⟩, ⟨0x3003, 0xD7FF, .valid, []⟩,
  ⟨0xD800, 0xDFFF, .disallowed, []⟩, ⟨0xE000, 0xFF0D, .valid, []⟩,
  ⟨0xFF0E, 0xFF0E, .mapped, [0x2E]⟩, ⟨0xFF0F, 0xFF60, .valid, []⟩,
  ⟨0xFF61, 0xFF61, .mapped, [0x2E]⟩, ⟨0xFF62, 0xFFFE, .valid, []⟩,
  ⟨0xFFFF, 0xFFFF, .disallowed, []⟩, ⟨0x10000, 0x10FFFF, .valid, []⟩]

def qc : List QcRow := [⟨0x300, 0x300, 2⟩, ⟨0x340, 0x341, 1⟩]

theorem files_ok : FilesOk csv map qc :=
  filesOk_of_check (by decide +kernel) (by decide +kernel) (by decide +kernel)

/-- What these files say. -/
def D : Data := dataOf csv map qc

theorem laws : D.Laws := lawsCheck_ok files_ok (fuel := 200) (by decide +kernel)

/-- The tables generated from these files. -/
def T : Tables where
  idna_table :=
    [⟨0, 44, .disallowed⟩, ⟨45, 45, .pvalid⟩, ⟨46, 47, .disallowed⟩, ⟨48, 57, .pvalid⟩, ⟨58, 96,
    .disallowed⟩, ⟨97, 122, .pvalid⟩, ⟨123, 182, .disallowed⟩, ⟨183, 183, .contexto⟩, ⟨184, 222,
    .disallowed⟩, ⟨223, 246, .pvalid⟩, ⟨247, 247, .disallowed⟩, ⟨248, 255, .pvalid⟩, ⟨256, 256,
    .disallowed⟩, ⟨257, 257, .pvalid⟩, ⟨768, 831, .pvalid⟩, ⟨832, 833, .disallowed⟩, ⟨885, 885,
    .contexto⟩, ⟨945, 969, .pvalid⟩, ⟨1488, 1514, .pvalid⟩, ⟨1523, 1524, .contexto⟩, ⟨1568,
    1599, .pvalid⟩, ⟨1632, 1641, .contexto⟩, ⟨1776, 1785, .contexto⟩, ⟨2325, 2361, .pvalid⟩,
    ⟨2381, 2381, .pvalid⟩, ⟨8204, 8205, .contextj⟩, ⟨12290, 12290, .disallowed⟩, ⟨12353, 12438,
    .pvalid⟩, ⟨12539, 12539, .contexto⟩, ⟨55296, 57343, .disallowed⟩, ⟨131072, 173791, .pvalid⟩]
  idna_flags :=
    [64, 1, 2, 16, 32, 4, 8]
  idna_map_8 :=
    [0, 44, 0, 0, 0, 45, 1, 0, 0, 1, 47, 0, 0, 0, 0, 48, 9, 0, 0, 1, 58, 6, 0, 0, 0, 65, 0, 2,
    0, 210, 66, 0, 2, 0, 218, 67, 0, 2, 0, 226, 68, 0, 2, 0, 234, 69, 0, 2, 0, 242, 70, 0, 2, 0,
    250, 71, 0, 2, 1, 2, 72, 0, 2, 1, 10, 73, 0, 2, 1, 18, 74, 0, 2, 1, 26, 75, 0, 2, 1, 34, 76,
    0, 2, 1, 42, 77, 0, 2, 1, 50, 78, 0, 2, 1, 58, 79, 0, 2, 1, 66, 80, 0, 2, 1, 74, 81, 0, 2,
    1, 82, 82, 0, 2, 1, 90, 83, 0, 2, 0, 194, 84, 0, 2, 1, 98, 85, 0, 2, 1, 106, 86, 0, 2, 1,
    114, 87, 0, 2, 1, 122, 88, 0, 2, 1, 130, 89, 0, 2, 1, 138, 90, 0, 2, 1, 146, 91, 5, 0, 0, 0,
    97, 25, 0, 0, 1, 123, 4, 0, 0, 0, 128, 31, 0, 0, 3, 160, 0, 2, 0, 100, 161, 6, 0, 0, 1, 168,
    0, 4, 0, 100, 169, 0, 0, 0, 1, 170, 0, 2, 0, 210, 171, 1, 0, 0, 1, 173, 0, 0, 0, 5, 174, 0,
    0, 0, 1, 175, 0, 4, 0, 124, 176, 1, 0, 0, 1, 178, 0, 2, 0, 58, 179, 0, 2, 0, 66, 180, 0, 4,
    0, 148, 181, 0, 2, 1, 154, 182, 1, 0, 0, 1, 184, 0, 4, 0, 172, 185, 0, 2, 0, 2, 186, 0, 2,
    1, 66, 187, 0, 0, 0, 1, 188, 0, 6, 0, 2, 189, 0, 6, 0, 34, 190, 0, 6, 0, 66, 191, 0, 0, 0,
    1, 192, 0, 2, 1, 170, 193, 0, 2, 1, 186, 194, 0, 2, 1, 202, 195, 0, 2, 1, 218, 196, 0, 2, 1,
    234, 197, 0, 2, 1, 250, 198, 0, 2, 2, 10, 199, 0, 2, 2, 26, 200, 0, 2, 2, 42, 201, 0, 2, 2,
    58, 202, 0, 2, 2, 74, 203, 0, 2, 2, 90, 204, 0, 2, 2, 106, 205, 0, 2, 2, 122, 206, 0, 2, 2,
    138, 207, 0, 2, 2, 154, 208, 0, 2, 2, 170, 209, 0, 2, 2, 186, 210, 0, 2, 2, 202, 211, 0, 2,
    2, 218, 212, 0, 2, 2, 234, 213, 0, 2, 2, 250, 214, 0, 2, 3, 10, 215, 0, 0, 0, 1, 216, 0, 2,
    3, 26, 217, 0, 2, 3, 42, 218, 0, 2, 3, 58, 219, 0, 2, 3, 74, 220, 0, 2, 3, 90, 221, 0, 2, 3,
    106, 222, 0, 2, 3, 122, 223, 0, 4, 0, 198, 224, 31, 0, 0, 1]
  idna_map_16 :=
    [1, 0, 0, 0, 2, 3, 138, 1, 1, 2, 62, 0, 0, 1, 3, 64, 0, 0, 2, 3, 154, 3, 65, 28, 202, 0, 0,
    1, 32, 12, 0, 1, 0, 0, 6, 32, 14, 15, 243, 0, 0, 1, 48, 2, 0, 0, 2, 3, 170, 48, 3, 167, 252,
    0, 0, 1, 216, 0, 7, 255, 0, 0, 3, 224, 0, 31, 13, 0, 0, 1, 255, 14, 0, 0, 2, 3, 170, 255,
    15, 0, 81, 0, 0, 1, 255, 97, 0, 0, 2, 3, 170, 255, 98, 0, 156, 0, 0, 1, 255, 255, 0, 0, 0,
    0, 3]
  idna_map_24 :=
    [1, 0, 0, 255, 255, 0, 0, 1, 2, 0, 0, 255, 255, 0, 0, 1, 3, 0, 0, 255, 255, 0, 0, 1, 4, 0,
    0, 255, 255, 0, 0, 1, 5, 0, 0, 255, 255, 0, 0, 1, 6, 0, 0, 255, 255, 0, 0, 1, 7, 0, 0, 255,
    255, 0, 0, 1, 8, 0, 0, 255, 255, 0, 0, 1, 9, 0, 0, 255, 255, 0, 0, 1, 10, 0, 0, 255, 255, 0,
    0, 1, 11, 0, 0, 255, 255, 0, 0, 1, 12, 0, 0, 255, 255, 0, 0, 1, 13, 0, 0, 255, 255, 0, 0, 1,
    14, 0, 0, 255, 255, 0, 0, 1, 15, 0, 0, 255, 255, 0, 0, 1, 16, 0, 0, 255, 255, 0, 0, 1]
  mapdata :=
    [49, 192, 68, 52, 49, 192, 68, 50, 51, 192, 68, 52, 32, 134, 8, 32, 134, 4, 32, 134, 1, 32,
    134, 39, 115, 115, 97, 98, 99, 100, 101, 102, 103, 104, 105, 106, 107, 108, 109, 110, 111,
    112, 113, 114, 116, 117, 118, 119, 120, 121, 122, 135, 60, 129, 96, 129, 97, 129, 98, 129,
    99, 129, 100, 129, 101, 129, 102, 129, 103, 129, 104, 129, 105, 129, 106, 129, 107, 129,
    108, 129, 109, 129, 110, 129, 111, 129, 112, 129, 113, 129, 114, 129, 115, 129, 116, 129,
    117, 129, 118, 129, 120, 129, 121, 129, 122, 129, 123, 129, 124, 129, 125, 129, 126, 130, 1,
    134, 0, 46]
  nfcqc_map :=
    [(768, 768, 2), (832, 833, 1)]

deriving instance DecidableEq for Tables
deriving instance DecidableEq for Except

theorem T_eq : gentr46map map qc (gendata csv) = .ok T := by decide +kernel

theorem implements : Implements T D := by
  obtain ⟨T', h1, h2, -⟩ := gen_implements files_ok
  rw [T_eq] at h1
  cases h1
  exact h2

/-! ### Toy Unicode functions -/

/-- Composition of `a` and U+0300. -/
def compose : List Nat → List Nat
  | [] => []
  | [c] => [c]
  | a :: b :: r => if a = 0x61 ∧ b = 0x300 then 0xE0 :: compose r else a :: compose (b :: r)

/-- Decomposition of U+0340. -/
def decompose (c : Nat) : Nat := if c = 0x340 then 0x300 else c

def bidi (c : Nat) : Bidi :=
  if 0x5D0 ≤ c ∧ c ≤ 0x5F4 then .R
  else if 0x620 ≤ c ∧ c ≤ 0x63F then .AL
  else if 0x660 ≤ c ∧ c ≤ 0x669 then .AN
  else if (0x30 ≤ c ∧ c ≤ 0x39) ∨ (0x6F0 ≤ c ∧ c ≤ 0x6F9) then .EN
  else if c = 0x2D then .ES
  else if 0x300 ≤ c ∧ c ≤ 0x341 then .NSM
  else .L

def joining (c : Nat) : Joining :=
  if c = 0x628 then .D
  else if c = 0x627 then .R
  else if 0x300 ≤ c ∧ c ≤ 0x341 then .T
  else .U

def script (c : Nat) : Script :=
  if 0x370 ≤ c ∧ c ≤ 0x3FF then .greek
  else if 0x590 ≤ c ∧ c ≤ 0x5FF then .hebrew
  else if 0x3041 ≤ c ∧ c ≤ 0x3096 then .hiragana
  else .other

def U : Uni where
  nfc s := some (compose (s.map decompose))
  ccc c := if 0x300 ≤ c ∧ c ≤ 0x341 then 230 else if c = 0x94D then 9 else 0
  bidi := bidi
  joining := joining
  script := script
  isM c := decide ((0x300 ≤ c ∧ c ≤ 0x341) ∨ c = 0x94D)
  fromLocale s := some s
  toLocale s := some s

def E : Env := ⟨T, U⟩

theorem compose_cons_ne {a : Nat} (h : a ≠ 0x61) (r : List Nat) :
    compose (a :: r) = a :: compose r := by
  cases r with
  | nil => simp [compose]
  | cons b r => rw [compose, if_neg (by omega)]

theorem compose_sep (a : List Nat) {c : Nat} (hc : c ≠ 0x61) (hc' : c ≠ 0x300) (b : List Nat) :
    compose (a ++ c :: b) = compose a ++ c :: compose b := by
  fun_induction compose a with
  | case1 => simp [compose_cons_ne hc, compose]
  | case2 d =>
    rw [List.singleton_append, compose, if_neg (by omega), compose_cons_ne hc]; simp
  | case3 x y r h ih =>
    rw [List.cons_append, List.cons_append, compose, if_pos h, ih]; simp
  | case4 x y r h ih =>
    rw [List.cons_append, List.cons_append, compose, if_neg h]
    rw [List.cons_append] at ih
    rw [ih]; simp

theorem mem_compose {c : Nat} (a : List Nat) (h : c ∈ compose a) : c = 0xE0 ∨ c ∈ a := by
  fun_induction compose a with
  | case1 => simp at h
  | case2 d => simp at h; simp [h]
  | case3 x y r hh ih => simp only [List.mem_cons] at h ⊢; grind
  | case4 x y r hh ih => simp only [List.mem_cons] at h ⊢ ih; grind

theorem compose_ascii (a : List Nat) (h : ∀ c ∈ a, c < 0x80) : compose a = a := by
  fun_induction compose a with
  | case1 => rfl
  | case2 d => rfl
  | case3 x y r hh ih => have := h y (by simp); omega
  | case4 x y r hh ih => rw [ih fun c hc => h c (List.mem_cons_of_mem _ hc)]

theorem head_compose (b : Nat) (r : List Nat) (h : b ≠ 0x61) : (compose (b :: r)).head? = some b := by
  rw [compose_cons_ne h]; rfl

theorem compose_cons_61 (l : List Nat) (h : l.head? ≠ some 0x300) :
    compose (0x61 :: l) = 0x61 :: compose l := by
  cases l with
  | nil => simp [compose]
  | cons b r =>
    rw [compose, if_neg]
    intro hh
    apply h
    rw [hh.2]; rfl

theorem compose_head (l : List Nat) (h : l.head? ≠ some 0x300) : (compose l).head? ≠ some 0x300 := by
  fun_induction compose l with
  | case1 => exact h
  | case2 d => exact h
  | case3 x y r hh ih => simp
  | case4 x y r hh ih => simpa using h

theorem compose_idem (a : List Nat) : compose (compose a) = compose a := by
  fun_induction compose a with
  | case1 => rfl
  | case2 d => simp [compose]
  | case3 x y r hh ih => rw [compose_cons_ne (by omega), ih]
  | case4 x y r hh ih =>
    by_cases hx : x = 0x61
    · subst hx
      rw [compose_cons_61, ih]
      apply compose_head
      simp only [List.head?_cons, ne_eq, Option.some.injEq]
      intro hy; exact hh ⟨rfl, hy⟩
    · rw [compose_cons_ne hx, ih]

theorem map_decompose_eq (l : List Nat) (h : ∀ c ∈ l, c ≠ 0x340) : l.map decompose = l := by
  induction l with
  | nil => rfl
  | cons c l ih =>
    rw [List.map_cons, ih fun x hx => h x (List.mem_cons_of_mem _ hx), decompose,
      if_neg (h c List.mem_cons_self)]

theorem uni_laws : U.Laws where
  nfc_ascii a h := by
    show some (compose (a.map decompose)) = some a
    rw [map_decompose_eq a fun c hc => by have := h c hc; omega, compose_ascii a h]
  nfc_idem a b h := by
    have hb : compose (a.map decompose) = b := Option.some.inj h
    subst hb
    show some (compose ((compose (a.map decompose)).map decompose)) = _
    rw [map_decompose_eq, compose_idem]
    intro c hc
    rcases mem_compose _ hc with h | h
    · omega
    · obtain ⟨x, _, rfl⟩ := List.mem_map.mp h
      unfold decompose
      split <;> omega
  nfc_sep a c b hc := by
    show some (compose ((a ++ c :: b).map decompose)) =
      some (compose (a.map decompose) ++ c :: compose (b.map decompose))
    have hd : decompose c = c := by unfold decompose; rw [if_neg (by omega)]
    rw [List.map_append, List.map_cons, hd, compose_sep _ (by omega) (by omega)]
  nfc_nosep a b c hc ha h := by
    have hb : compose (a.map decompose) = b := Option.some.inj h
    subst hb
    intro hm
    rcases mem_compose _ hm with h | h
    · omega
    · obtain ⟨x, hx, rfl⟩ := List.mem_map.mp h
      by_cases hx' : x = 0x340
      · rw [decompose, if_pos hx'] at hc; omega
      · rw [decompose, if_neg hx'] at ha; exact ha hx
  nfc_scalar a b ha h := by
    have hb : compose (a.map decompose) = b := Option.some.inj h
    subst hb
    intro c hm
    rcases mem_compose _ hm with h | h
    · subst h; decide
    · obtain ⟨x, hx, rfl⟩ := List.mem_map.mp h
      have := ha x hx
      unfold decompose
      split
      · decide
      · exact this

end Idn2.Sample
