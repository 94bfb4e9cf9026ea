import Verif.Props.GenText

/-
A complete small set of data files: a concrete case for C53.
-/

namespace Idn2
open Spec

namespace Tiny

def csv : List CsvRow := [⟨0x61, 0x7A, .pvalid⟩, ⟨0xB7, 0xB7, .contexto⟩, ⟨0x378, 0x379, .unassigned⟩]

def map : List MapRow := [⟨0, 0xBF, .valid, []⟩, ⟨0xC0, 0xC0, .mapped, [0x61, 0x300]⟩,
  ⟨0xC1, 0xFF, .std3Valid, []⟩, ⟨0x100, 0xFFFF, .valid, []⟩, ⟨0x10000, 0x10FFFF, .disallowed, []⟩]

def qc : List QcRow := [⟨0x340, 0x341, 1⟩, ⟨0x300, 0x300, 2⟩]

def csvLines : List (List Nat) :=
  [str "0061-007a,PVALID,letters\n", str "00B7,CONTEXTO,MIDDLE DOT\n", str "0378-0379,UNASSIGNED,-"]

def mapLines : List (List Nat) :=
  [str "0000..00bf ; valid # x\n", str "# comment\n", str " 00C0\t; mapped ; 0061 0300 # A\r\n",
   str "\r\n", str "00C1..00FF;disallowed_STD3_valid\n", str "0100..FFFF ; valid ;; NV8 # y\n",
   str "10000..10FFFF ; disallowed"]

def qcLines : List (List Nat) :=
  [str "0340..0341 ; NFC_QC; N # Mn\n", str "00A0 ; NFKC_QC; N\n", str "0300;NFC_QC;M\n"]

def csvText : List Nat := (str "Codepoint,Property,Description\n" :: csvLines).flatten
def mapText : List Nat := mapLines.flatten
def qcText : List Nat := qcLines.flatten

/-! ### They say so -/

/-- A checked value of a hexadecimal number. -/
def hexDigitOf (b : Nat) : Option Nat :=
  if 48 ≤ b ∧ b < 58 then some (b - 48)
  else if 65 ≤ b ∧ b < 71 then some (b - 55)
  else if 97 ≤ b ∧ b < 103 then some (b - 87) else none

def hexOf : List Nat → Option Nat
  | [] => none
  | [b] => hexDigitOf b
  | b :: r => (hexDigitOf b).bind fun d => (hexOf r).map (· + d * 16 ^ r.length)

theorem hexDigitOf_ok {b d : Nat} (h : hexDigitOf b = some d) : HexDigit b d := by
  unfold hexDigitOf at h
  unfold HexDigit
  grind

theorem hex_cons {b d : Nat} (hb : HexDigit b d) {t : List Nat} {v : Nat} (ht : Hex t v) :
    Hex (b :: t) (d * 16 ^ t.length + v) := by
  induction ht with
  | one h =>
    have := Hex.snoc (.one hb) h
    simpa [Nat.mul_comm] using this
  | @snoc t v b' d' _ h ih =>
    have := Hex.snoc ih h
    have e : 16 * (d * 16 ^ t.length + v) + d' = d * 16 ^ (t ++ [b']).length + (16 * v + d') := by
      rw [List.length_append, List.length_singleton, Nat.pow_succ, Nat.mul_add,
        Nat.mul_left_comm, Nat.mul_comm 16, Nat.add_assoc]
    rw [← e]
    exact this

theorem hexOf_ok {t : List Nat} {v : Nat} (h : hexOf t = some v) : Hex t v := by
  induction t generalizing v with
  | nil => cases h
  | cons b r ih =>
    cases r with
    | nil => exact .one (hexDigitOf_ok h)
    | cons c r =>
      unfold hexOf at h
      cases hd : hexDigitOf b with
      | none => rw [hd] at h; cases h
      | some d =>
        rw [hd] at h
        cases hr : hexOf (c :: r) with
        | none => rw [hr] at h; cases h
        | some w =>
          rw [hr] at h
          simp at h
          subst h
          have := hex_cons (hexDigitOf_ok hd) (ih hr)
          rw [Nat.add_comm] at this
          exact this

theorem hex32 {t : List Nat} {v : Nat} (h : hexOf t = some v) (hv : v < 4294967296) : Hex32 t v :=
  ⟨hexOf_ok h, hv⟩

instance (w : List Nat) : Decidable (Blank w) := by unfold Blank; infer_instance

theorem lineEnd_nl : LineEnd (str "\n") := ⟨[], [10], by decide, Or.inl rfl, Or.inr rfl⟩
theorem lineEnd_nil : LineEnd [] := ⟨[], [], rfl, Or.inl rfl, Or.inl rfl⟩
theorem lineEnd_comment {r : List Nat} (h : 10 ∉ r) (h0 : 0 ∉ r) : LineEnd (str "#" ++ r ++ str "\n") :=
  ⟨str "#" ++ r, str "\n", rfl, Or.inr ⟨r, rfl, h, h0⟩, Or.inr (by decide)⟩

theorem skipLine_of {w e : List Nat} (h : Blank w) (he : LineEnd e) : SkipLine (w ++ e) :=
  ⟨w, e, rfl, h, he⟩

theorem lines_of {ls : List (List Nat)}
    (h1 : ∀ l ∈ ls.dropLast, l.getLast? = some 10 ∧ 10 ∉ l.dropLast)
    (h2 : ∀ l ∈ ls.getLast?, l ≠ [] ∧ 10 ∉ l.dropLast) (h3 : ∀ l ∈ ls, l.length ≤ 1023) :
    Lines ls ls.flatten := by
  have aux : ∀ l : List Nat, l.getLast? = some 10 → l = l.dropLast ++ [10] := by
    intro l h
    have hne : l ≠ [] := by intro hc; rw [hc] at h; cases h
    rw [List.getLast?_eq_some_getLast hne] at h
    injection h with h
    rw [← h]
    exact (List.dropLast_concat_getLast hne).symm
  refine ⟨rfl, fun l hl => ⟨l.dropLast, aux l (h1 l hl).1, (h1 l hl).2⟩, fun l hl => ⟨(h2 l hl).1, ?_⟩, h3⟩
  by_cases h : l.getLast? = some 10
  · exact Or.inr ⟨l.dropLast, aux l h, (h2 l hl).2⟩
  · refine Or.inl fun hm => ?_
    have hne := (h2 l hl).1
    rw [← List.dropLast_concat_getLast hne, List.mem_append, List.mem_singleton] at hm
    rcases hm with hm | hm
    · exact (h2 l hl).2 hm
    · exact h (by rw [List.getLast?_eq_some_getLast hne, ← hm])

theorem mapFile : MapFile map mapText := by
  refine ⟨mapLines, lines_of (by decide) (by decide) (by decide), ?_⟩
  refine .row ?_ (.skip ?_ (.row ?_ (.skip ?_ (.row ?_ (.row ?_ (.row ?_ .nil))))))
  · exact MapLine.intro (row := ⟨0, 0xBF, .valid, []⟩) (w0 := []) (r := str "0000..00bf")
      (w1 := str " ") (w2 := str " ") (w3 := str " ") (m := str "# x\n") (by decide)
      (.range (t := str "0000") (u := str "00bf") (hex32 (by decide) (by decide))
        (hex32 (by decide) (by decide))) (by decide) (by decide) (by decide)
      (.absent (lineEnd_comment (r := str " x") (by decide) (by decide)))
  · exact skipLine_of (w := []) (by decide) (lineEnd_comment (r := str " comment") (by decide) (by decide))
  · exact MapLine.intro (row := ⟨0xC0, 0xC0, .mapped, [0x61, 0x300]⟩) (w0 := str " ") (r := str "00C0")
      (w1 := str "\t") (w2 := str " ") (w3 := str " ") (m := str "; 0061 0300 # A\r\n") (by decide)
      (.single (hex32 (by decide) (by decide))) (by decide) (by decide) (by decide)
      (.listed (w := str " ") (n := str "0061 0300") (w' := str " ") (e := str "# A\r\n") (by decide)
        (.cons (t := str "0061") (w := str " ") (u := str "0300") (hex32 (by decide) (by decide))
          (by decide) (by decide) (.one (hex32 (by decide) (by decide)))) (by decide)
        (Or.inl (lineEnd_comment (r := str " A\r") (by decide) (by decide))))
  · exact skipLine_of (w := str "\r") (by decide) lineEnd_nl
  · exact MapLine.intro (row := ⟨0xC1, 0xFF, .std3Valid, []⟩) (w0 := []) (r := str "00C1..00FF")
      (w1 := []) (w2 := []) (w3 := []) (m := str "\n") (by decide)
      (.range (t := str "00C1") (u := str "00FF") (hex32 (by decide) (by decide))
        (hex32 (by decide) (by decide))) (by decide) (by decide) (by decide) (.absent lineEnd_nl)
  · exact MapLine.intro (row := ⟨0x100, 0xFFFF, .valid, []⟩) (w0 := []) (r := str "0100..FFFF")
      (w1 := str " ") (w2 := str " ") (w3 := str " ") (m := str ";; NV8 # y\n") (by decide)
      (.range (t := str "0100") (u := str "FFFF") (hex32 (by decide) (by decide))
        (hex32 (by decide) (by decide))) (by decide) (by decide) (by decide)
      (.empty (w := []) (e := str "; NV8 # y\n") (by decide)
        (Or.inr ⟨str " NV8 ", str "# y\n", by decide, by decide,
          lineEnd_comment (r := str " y") (by decide) (by decide)⟩))
  · exact MapLine.intro (row := ⟨0x10000, 0x10FFFF, .disallowed, []⟩) (w0 := [])
      (r := str "10000..10FFFF") (w1 := str " ") (w2 := str " ") (w3 := []) (m := []) (by decide)
      (.range (t := str "10000") (u := str "10FFFF") (hex32 (by decide) (by decide))
        (hex32 (by decide) (by decide))) (by decide) (by decide) (by decide) (.absent lineEnd_nil)

theorem qcFile : QcFile qc qcText := by
  refine ⟨qcLines, lines_of (by decide) (by decide) (by decide), ?_⟩
  refine .row ?_ (.skip (Or.inr ?_) (.row ?_ .nil))
  · exact QcLine.intro (row := ⟨0x340, 0x341, 1⟩) (w0 := []) (r := str "0340..0341") (w1 := str " ")
      (w2 := str " ") (w3 := []) (w4 := str " ") (w5 := str " ") (e := str "# Mn\n") (by decide)
      (.range (t := str "0340") (u := str "0341") (hex32 (by decide) (by decide))
        (hex32 (by decide) (by decide))) (by decide) (by decide) (by decide) (by decide) (by decide)
      (Or.inl (lineEnd_comment (r := str " Mn") (by decide) (by decide))) (Or.inl rfl)
  · exact OtherLine.intro (w0 := []) (r := str "00A0") (w1 := str " ") (w2 := str " ")
      (p := str "NFKC_QC") (w3 := []) (e := str "; N\n") (by decide)
      (.single (hex32 (by decide : hexOf (str "00A0") = some 0xA0) (by decide))) (by decide) (by decide)
      (by decide) (Or.inr ⟨str " N", str "\n", by decide, by decide, lineEnd_nl⟩) (by decide) (by decide)
  · exact QcLine.intro (row := ⟨0x300, 0x300, 2⟩) (w0 := []) (r := str "0300") (w1 := [])
      (w2 := []) (w3 := []) (w4 := []) (w5 := []) (e := str "\n") (by decide)
      (.single (hex32 (by decide) (by decide))) (by decide) (by decide) (by decide) (by decide)
      (by decide) (Or.inl lineEnd_nl) (Or.inr rfl)

theorem csvFile : CsvFile csv csvText := by
  refine ⟨str "Description\n", csvLines, by decide, lines_of (by decide) (by decide) (by decide), ?_⟩
  refine .row ?_ (.row ?_ (.row ?_ .nil))
  · exact CsvLine.range (row := ⟨0x61, 0x7A, .pvalid⟩) (h := str "0061") (k := str "007a")
      (r := str "letters\n") (hex32 (by decide) (by decide)) (hex32 (by decide) (by decide)) (by decide)
  · exact CsvLine.single (row := ⟨0xB7, 0xB7, .contexto⟩) (h := str "00B7")
      (r := str "MIDDLE DOT\n") (hex32 (by decide) (by decide)) rfl (by decide)
  · exact CsvLine.range (row := ⟨0x378, 0x379, .unassigned⟩) (h := str "0378") (k := str "0379")
      (r := str "-") (hex32 (by decide) (by decide)) (hex32 (by decide) (by decide)) (by decide)

theorem hasMapping : ∀ r ∈ map, r.hasMapping := by
  unfold MapRow.hasMapping
  decide

theorem filesOk : FilesOk csv map qc :=
  filesOk_of_check (by decide +kernel) (by decide +kernel) (by decide +kernel)

/-- C53 applied to these texts. -/
example : ∃ out tbl T, gendata_text csvText = .ok out ∧ out.map readInit = tbl.map some ∧
    gentr46map_text mapText qcText tbl = .ok T ∧ T.idna_table = tbl ∧
    Implements T (dataOf csv map qc) :=
  C53_generators csvFile mapFile qcFile hasMapping filesOk

end Tiny

end Idn2
