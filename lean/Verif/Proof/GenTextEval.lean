import Verif.Proof.GenText

/-
Checking a concrete text against its lines.
-/

namespace Idn2
open Spec

/-- The bytes of a line kept as a number, the first byte being the least significant. -/
def bytesOf : Nat → Nat → List Nat
  | 0, _ => []
  | k + 1, n => bif Nat.beq n 0 then [] else n % 256 :: bytesOf k (n / 256)

/-- The text kept in such a form: every line with its line feed. -/
def textOf (lines : List Nat) : List Nat := (lines.map fun n => bytesOf 1022 n ++ [10]).flatten

/-- Neither a zero byte nor a line feed. -/
def cleanLine : List Nat → Bool
  | [] => true
  | b :: r => bif Nat.beq b 0 || Nat.beq b 10 then false else cleanLine r

theorem cleanLine_iff {l : List Nat} (h : cleanLine l = true) : 0 ∉ l ∧ 10 ∉ l := by
  induction l with
  | nil => simp
  | cons b l ih =>
    unfold cleanLine at h
    cases hb : (Nat.beq b 0 || Nat.beq b 10) with
    | true => rw [hb] at h; cases h
    | false =>
      rw [hb] at h
      obtain ⟨h1, h2⟩ := ih h
      simp only [Bool.or_eq_false_iff] at hb
      have a := Nat.ne_of_beq_eq_false hb.1
      have c := Nat.ne_of_beq_eq_false hb.2
      simp only [List.mem_cons, not_or]
      exact ⟨⟨Ne.symm a, h1⟩, Ne.symm c, h2⟩

theorem bytesOf_length (k n : Nat) : (bytesOf k n).length ≤ k := by
  induction k generalizing n with
  | zero => simp [bytesOf]
  | succ k ih =>
    unfold bytesOf
    cases Nat.beq n 0
    · simpa using ih (n / 256)
    · simp

theorem textOf_fgets {lines : List Nat} (h : ∀ n ∈ lines, cleanLine (bytesOf 1022 n) = true) :
    fgetsAll (textOf lines) = lines.map fun n => bytesOf 1022 n ++ [10] := by
  induction lines with
  | nil => exact fgetsAll_nil
  | cons n lines ih =>
    have hc := cleanLine_iff (h n (by simp))
    have e : textOf (n :: lines) = bytesOf 1022 n ++ 10 :: textOf lines := by simp [textOf]
    have hl := bytesOf_length 1022 n
    rw [e, fgetsAll_ne (by simp), fgets_line 1023 _ hc.2 (by omega), List.map_cons]
    rw [ih fun x hx => h x (by simp [hx])]

/-! ### Versions the kernel evaluates faster

The functions that go over all bytes, written with recursors. -/

noncomputable def bytesR (k : Nat) : Nat → List Nat :=
  Nat.rec (motive := fun _ => Nat → List Nat) (fun _ => []) (fun _ ih n =>
    Bool.rec (motive := fun _ => List Nat) (Nat.mod n 256 :: ih (Nat.div n 256)) [] (Nat.beq n 0)) k

theorem bytesR_eq : bytesR = bytesOf := by
  funext k
  induction k with
  | zero => rfl
  | succ k ih =>
    funext n
    have e : bytesR (k + 1) n = Bool.rec (motive := fun _ => List Nat)
      (Nat.mod n 256 :: bytesR k (Nat.div n 256)) [] (Nat.beq n 0) := rfl
    have e' : bytesOf (k + 1) n = bif Nat.beq n 0 then [] else n % 256 :: bytesOf k (n / 256) := rfl
    rw [e, ih, e']
    cases Nat.beq n 0 <;> rfl

noncomputable def cleanR (l : List Nat) : Bool :=
  List.rec (motive := fun _ => Bool) true (fun b _ ih =>
    Bool.rec (motive := fun _ => Bool) (Bool.rec (motive := fun _ => Bool) ih false (Nat.beq b 10))
      false (Nat.beq b 0)) l

theorem cleanR_eq : cleanR = cleanLine := by
  funext l
  induction l with
  | nil => rfl
  | cons b l ih =>
    have e : cleanR (b :: l) = Bool.rec (motive := fun _ => Bool) (Bool.rec (motive := fun _ => Bool)
      (cleanR l) false (Nat.beq b 10)) false (Nat.beq b 0) := rfl
    have e' : cleanLine (b :: l) = bif Nat.beq b 0 || Nat.beq b 10 then false else cleanLine l := rfl
    rw [e, ih, e']
    cases Nat.beq b 0 <;> cases Nat.beq b 10 <;> rfl

noncomputable def spaceR (b : Nat) : Bool :=
  Bool.rec (motive := fun _ => Bool)
    (Bool.rec (motive := fun _ => Bool) false (Nat.ble b 13) (Nat.ble 9 b)) true (Nat.beq b 32)

theorem spaceR_eq : spaceR = spaceByte := by
  funext b
  unfold spaceR spaceByte
  have : (b == 32) = Nat.beq b 32 := by
    cases h : Nat.beq b 32 with
    | true => simpa using Nat.eq_of_beq_eq_true h
    | false => simpa using Nat.ne_of_beq_eq_false h
  rw [this]
  cases Nat.beq b 32 <;> cases Nat.ble b 13 <;> cases Nat.ble 9 b <;> rfl

noncomputable def skipR (l : List Nat) : GRes (List Nat) :=
  List.rec (motive := fun _ => GRes (List Nat)) (.ok []) (fun b r ih =>
    Bool.rec (motive := fun _ => GRes (List Nat)) (Bool.rec (motive := fun _ => GRes (List Nat))
      (.ok (b :: r)) ih (spaceR b)) .ub (Nat.ble 128 b)) l

theorem skipR_eq : skipR = skipSpace := by
  funext l
  induction l with
  | nil => rfl
  | cons b r ih =>
    have e : skipR (b :: r) = Bool.rec (motive := fun _ => GRes (List Nat))
      (Bool.rec (motive := fun _ => GRes (List Nat)) (.ok (b :: r)) (skipR r) (spaceR b)) .ub
      (Nat.ble 128 b) := rfl
    have e' : skipSpace (b :: r) =
      if b ≥ 128 then .ub else if spaceByte b then skipSpace r else .ok (b :: r) := rfl
    rw [e, ih, spaceR_eq, e']
    cases h : Nat.ble 128 b with
    | true => rw [if_pos (Nat.le_of_ble_eq_true h)]
    | false =>
      rw [if_neg (fun hx => by rw [Nat.ble_eq_true_of_le hx] at h; cases h)]
      cases spaceByte b <;> rfl

noncomputable def cutR (l : List Nat) : List Nat × List Nat :=
  List.rec (motive := fun _ => List Nat × List Nat) ([], []) (fun b r ih =>
    Bool.rec (motive := fun _ => List Nat × List Nat)
      (Bool.rec (motive := fun _ => List Nat × List Nat) (b :: ih.1, ih.2) ([], []) (Nat.beq b 0x23))
      ([], r) (Nat.beq b 0x3B)) l

theorem cutR_eq : cutR = cutField := by
  funext l
  induction l with
  | nil => rfl
  | cons b r ih =>
    have e : cutR (b :: r) = Bool.rec (motive := fun _ => List Nat × List Nat)
      (Bool.rec (motive := fun _ => List Nat × List Nat) (b :: (cutR r).1, (cutR r).2) ([], [])
        (Nat.beq b 0x23)) ([], r) (Nat.beq b 0x3B) := rfl
    have e' : cutField (b :: r) = if b = 0x3B then ([], r) else if b = 0x23 then ([], [])
      else (b :: (cutField r).1, (cutField r).2) := rfl
    rw [e, ih, e']
    cases h : Nat.beq b 0x3B with
    | true => rw [if_pos (Nat.eq_of_beq_eq_true h)]
    | false =>
      rw [if_neg (Nat.ne_of_beq_eq_false h)]
      cases h : Nat.beq b 0x23 with
      | true => rw [if_pos (Nat.eq_of_beq_eq_true h)]
      | false => rw [if_neg (Nat.ne_of_beq_eq_false h)]

noncomputable def revR (l : List Nat) : List Nat → List Nat :=
  List.rec (motive := fun _ => List Nat → List Nat) (fun a => a) (fun b _ ih a => ih (b :: a)) l

theorem revR_eq (l a : List Nat) : revR l a = l.reverse ++ a := by
  induction l generalizing a with
  | nil => rfl
  | cons b l ih =>
    have e : revR (b :: l) a = revR l (b :: a) := rfl
    rw [e, ih]; simp

noncomputable def fieldR (line : List Nat) : GRes (Option (List Nat) × List Nat) :=
  match line with
  | [] => .ok (none, [])
  | b :: r => do
    let s ← skipR (cutR (b :: r)).1
    let t ← skipR (revR s [])
    pure (some (revR t []), (cutR (b :: r)).2)

theorem fieldR_eq : fieldR = nextField := by
  funext line
  unfold fieldR nextField
  simp only [skipR_eq, cutR_eq, revR_eq, List.append_nil]
  cases line <;> rfl

/-! ### IdnaMappingTable.txt -/

/-- What `read_IdnaMappings_line` reads, apart from the checks against the state. -/
noncomputable def mapFields (linep : List Nat) : GRes MapRow := do
  let (codepoint, l1) ← fieldR linep
  let (flag, l2) ← fieldR l1
  let (mapping, _) ← fieldR l2
  match codepoint, flag with
  | some codepoint, some flag =>
    match ← scanRange codepoint with
    | none => .complaint
    | some (cp1, cp2) =>
      match statusOf flag with
      | none => .complaint
      | some status => do
        let ms ← scanMapping cp1 status mapping
        pure ⟨cp1, cp2, status, ms⟩
  | _, _ => .ub

/-- A line, or nothing if it has no content. -/
noncomputable def mapLine (buf : List Nat) : GRes (Option MapRow) := do
  let linep ← skipR buf
  match linep with
  | [] => pure none
  | b :: r => if b = 0x23 then pure none else do
    let row ← mapFields (b :: r)
    pure (some row)

theorem GRes.bind_eq_ok {α β : Type} {x : GRes α} {f : α → GRes β} {b : β} :
    (x >>= f) = GRes.ok b ↔ ∃ a, x = GRes.ok a ∧ f a = GRes.ok b := by
  cases x <;> simp

theorem mapFields_read {linep : List Nat} {row : MapRow} (h : mapFields linep = .ok row)
    (st : GenState) :
    read_IdnaMappings_line st linep = read_IdnaMappings st row := by
  unfold mapFields at h
  rw [fieldR_eq] at h
  unfold read_IdnaMappings_line
  obtain ⟨⟨codepoint, l1⟩, h1, h⟩ := GRes.bind_eq_ok.mp h
  rw [h1, GRes.bind_ok]
  obtain ⟨⟨flag, l2⟩, h2, h⟩ := GRes.bind_eq_ok.mp h
  simp only at h2 h ⊢
  rw [h2, GRes.bind_ok]
  obtain ⟨⟨mapping, l3⟩, h3, h⟩ := GRes.bind_eq_ok.mp h
  simp only at h3 h ⊢
  rw [h3, GRes.bind_ok]
  simp only
  cases codepoint with
  | none => cases h
  | some codepoint =>
    cases flag with
    | none => cases h
    | some flag =>
      simp only at h ⊢
      obtain ⟨rng, h4, h⟩ := GRes.bind_eq_ok.mp h
      rw [h4, GRes.bind_ok]
      cases rng with
      | none => cases h
      | some rng =>
        obtain ⟨cp1, cp2⟩ := rng
        simp only at h ⊢
        cases hs : statusOf flag with
        | none => rw [hs] at h; cases h
        | some status =>
          rw [hs] at h
          simp only at h
          obtain ⟨ms, h5, h⟩ := GRes.bind_eq_ok.mp h
          simp only [GRes.pure_eq, GRes.ok.injEq] at h
          subst h
          by_cases c1 : cp1 > cp2
          · rw [if_pos c1]; unfold read_IdnaMappings; rw [if_pos c1]
          · rw [if_neg c1]
            by_cases c2 : outOfOrder cp1 st.map = true
            · rw [if_pos c2]; unfold read_IdnaMappings; rw [if_neg c1, if_pos c2]
            · rw [if_neg c2]
              simp only
              rw [h5, GRes.bind_ok]

theorem mapLine_read {buf : List Nat} (hz : 0 ∉ buf) {x : Option MapRow} (h : mapLine buf = .ok x)
    (st : GenState) : scanLine read_IdnaMappings_line st buf =
      match x with
      | none => .ok st
      | some row => read_IdnaMappings st row := by
  unfold mapLine at h
  rw [skipR_eq] at h
  unfold scanLine
  rw [lineStr_eq hz, stripEol_eq]
  obtain ⟨linep, h1, h⟩ := GRes.bind_eq_ok.mp h
  rw [h1, GRes.bind_ok]
  cases linep with
  | nil => simp only [GRes.pure_eq, GRes.ok.injEq] at h ⊢; subst h; rfl
  | cons b r =>
    simp only at h ⊢
    by_cases c : b = 0x23
    · rw [if_pos c] at h ⊢
      simp only [GRes.pure_eq, GRes.ok.injEq] at h ⊢; subst h; rfl
    · rw [if_neg c] at h ⊢
      obtain ⟨row, h2, h⟩ := GRes.bind_eq_ok.mp h
      simp only [GRes.pure_eq, GRes.ok.injEq] at h
      subst h
      exact mapFields_read h2 st

/-- The lines of the text are `rows`. -/
noncomputable def mapTextCheck : List Nat → List MapRow → Bool
  | [], rows => rows.isEmpty
  | n :: ns, rows =>
    cleanR (bytesR 1022 n) &&
    match mapLine (bytesR 1022 n ++ [10]) with
    | .ok none => mapTextCheck ns rows
    | .ok (some r) =>
      match rows with
      | [] => false
      | r' :: rs => decide (r = r') && mapTextCheck ns rs
    | _ => false

theorem mapTextCheck_ok {lines : List Nat} {rows : List MapRow} (h : mapTextCheck lines rows = true)
    (st : GenState) :
    scanLines read_IdnaMappings_line st (lines.map fun n => bytesOf 1022 n ++ [10]) =
      scanMappings st rows ∧ ∀ n ∈ lines, cleanLine (bytesOf 1022 n) = true := by
  induction lines generalizing rows st with
  | nil =>
    cases rows with
    | nil => exact ⟨rfl, by simp⟩
    | cons r rs => simp [mapTextCheck] at h
  | cons n ns ih =>
    unfold mapTextCheck at h
    rw [bytesR_eq, cleanR_eq] at h
    rw [Bool.and_eq_true] at h
    obtain ⟨hc, h⟩ := h
    have hz : 0 ∉ bytesOf 1022 n ++ [10] := by simp [(cleanLine_iff hc).1]
    rw [List.map_cons]
    unfold scanLines
    cases hm : mapLine (bytesOf 1022 n ++ [10]) with
    | complaint => rw [hm] at h; cases h
    | ub => rw [hm] at h; cases h
    | ok x =>
      rw [hm] at h
      rw [mapLine_read hz hm st]
      cases x with
      | none =>
        simp only at h ⊢
        obtain ⟨h1, h2⟩ := ih h st
        exact ⟨h1, by simpa using ⟨hc, h2⟩⟩
      | some r =>
        cases rows with
        | nil => cases h
        | cons r' rs =>
          simp only [Bool.and_eq_true, decide_eq_true_eq] at h
          obtain ⟨rfl, h⟩ := h
          simp only
          unfold scanMappings
          refine ⟨?_, by simpa using ⟨hc, (ih h st).2⟩⟩
          cases read_IdnaMappings st r with
          | complaint => rfl
          | ub => rfl
          | ok st' => exact (ih h st').1

/-- A text found to have the lines `rows` is read as these. -/
theorem scan_map_checked {lines : List Nat} {rows : List MapRow}
    (h : mapTextCheck lines rows = true) (st : GenState) :
    scanFile read_IdnaMappings_line st (textOf lines) = scanMappings st rows := by
  obtain ⟨h1, h2⟩ := mapTextCheck_ok h st
  unfold scanFile
  rw [textOf_fgets h2, h1]

/-! ### DerivedNormalizationProps.txt -/

/-- What `read_NFCQC` reads: nothing for a line of another property. -/
noncomputable def qcFields (linep : List Nat) : GRes (Option QcRow) := do
  let (codepoint, l1) ← fieldR linep
  let (type, l2) ← fieldR l1
  let (check, _) ← fieldR l2
  if type ≠ some [0x4E, 0x46, 0x43, 0x5F, 0x51, 0x43] then pure none
  else
    match codepoint, check with
    | some codepoint, some check =>
      match ← scanRange codepoint with
      | none => .complaint
      | some (cp1, cp2) =>
        if check.head? = some 0x4E then pure (some ⟨cp1, cp2, 1⟩)
        else if check.head? = some 0x4D then pure (some ⟨cp1, cp2, 2⟩)
        else .complaint
    | _, _ => .ub

/-- A line, or nothing if it has no content. -/
noncomputable def qcLine (buf : List Nat) : GRes (Option QcRow) := do
  let linep ← skipR buf
  match linep with
  | [] => pure none
  | b :: r => if b = 0x23 then pure none else qcFields (b :: r)

/-- What is done with a line. -/
def qcDo (st : List QcRow) : Option QcRow → GRes (List QcRow)
  | none => .ok st
  | some r => qcStep st r

theorem qcFields_read {linep : List Nat} {x : Option QcRow} (h : qcFields linep = .ok x)
    (st : List QcRow) : read_NFCQC st linep = qcDo st x := by
  unfold qcFields at h
  rw [fieldR_eq] at h
  unfold read_NFCQC
  obtain ⟨⟨codepoint, l1⟩, h1, h⟩ := GRes.bind_eq_ok.mp h
  rw [h1, GRes.bind_ok]
  obtain ⟨⟨type, l2⟩, h2, h⟩ := GRes.bind_eq_ok.mp h
  simp only at h2 h ⊢
  rw [h2, GRes.bind_ok]
  obtain ⟨⟨check, l3⟩, h3, h⟩ := GRes.bind_eq_ok.mp h
  simp only at h3 h ⊢
  rw [h3, GRes.bind_ok]
  simp only
  by_cases ct : type ≠ some [0x4E, 0x46, 0x43, 0x5F, 0x51, 0x43]
  · rw [if_pos ct] at h ⊢
    simp only [GRes.pure_eq, GRes.ok.injEq] at h
    subst h
    rfl
  · rw [if_neg ct] at h ⊢
    cases codepoint with
    | none => cases h
    | some codepoint =>
      cases check with
      | none => cases h
      | some check =>
        simp only at h ⊢
        obtain ⟨rng, h4, h⟩ := GRes.bind_eq_ok.mp h
        rw [h4, GRes.bind_ok]
        cases rng with
        | none => cases h
        | some rng =>
          obtain ⟨cp1, cp2⟩ := rng
          simp only at h ⊢
          by_cases c1 : check.head? = some 0x4E
          · rw [if_pos c1] at h
            simp only [GRes.pure_eq, GRes.ok.injEq] at h
            subst h
            simp only [c1, qcDo, qcStep]
            by_cases c : cp1 > cp2 <;> by_cases c' : st.length + 1 ≥ 140 <;> simp [c, c']
          · rw [if_neg c1] at h
            by_cases c2 : check.head? = some 0x4D
            · rw [if_pos c2] at h
              simp only [GRes.pure_eq, GRes.ok.injEq] at h
              subst h
              simp only [c2, qcDo, qcStep]
              by_cases c : cp1 > cp2 <;> by_cases c' : st.length + 1 ≥ 140 <;> simp [c, c']
            · rw [if_neg c2] at h; cases h

theorem qcLine_read {buf : List Nat} (hz : 0 ∉ buf) {x : Option QcRow} (h : qcLine buf = .ok x)
    (st : List QcRow) : scanLine read_NFCQC st buf = qcDo st x := by
  unfold qcLine at h
  rw [skipR_eq] at h
  unfold scanLine
  rw [lineStr_eq hz, stripEol_eq]
  obtain ⟨linep, h1, h⟩ := GRes.bind_eq_ok.mp h
  rw [h1, GRes.bind_ok]
  cases linep with
  | nil => simp only [GRes.pure_eq, GRes.ok.injEq] at h ⊢; subst h; rfl
  | cons b r =>
    simp only at h ⊢
    by_cases c : b = 0x23
    · rw [if_pos c] at h ⊢
      simp only [GRes.pure_eq, GRes.ok.injEq] at h ⊢; subst h; rfl
    · rw [if_neg c] at h ⊢
      exact qcFields_read h st

/-- The lines of the text are `rows`. -/
noncomputable def qcTextCheck : List Nat → List QcRow → Bool
  | [], rows => rows.isEmpty
  | n :: ns, rows =>
    cleanR (bytesR 1022 n) &&
    match qcLine (bytesR 1022 n ++ [10]) with
    | .ok none => qcTextCheck ns rows
    | .ok (some r) =>
      match rows with
      | [] => false
      | r' :: rs => decide (r = r') && qcTextCheck ns rs
    | _ => false

theorem qcTextCheck_ok {lines : List Nat} {rows : List QcRow} (h : qcTextCheck lines rows = true)
    (st : List QcRow) :
    scanLines read_NFCQC st (lines.map fun n => bytesOf 1022 n ++ [10]) = qcSteps st rows ∧
      ∀ n ∈ lines, cleanLine (bytesOf 1022 n) = true := by
  induction lines generalizing rows st with
  | nil =>
    cases rows with
    | nil => exact ⟨rfl, by simp⟩
    | cons r rs => simp [qcTextCheck] at h
  | cons n ns ih =>
    unfold qcTextCheck at h
    rw [bytesR_eq, cleanR_eq] at h
    rw [Bool.and_eq_true] at h
    obtain ⟨hc, h⟩ := h
    have hz : 0 ∉ bytesOf 1022 n ++ [10] := by simp [(cleanLine_iff hc).1]
    rw [List.map_cons]
    unfold scanLines
    cases hm : qcLine (bytesOf 1022 n ++ [10]) with
    | complaint => rw [hm] at h; cases h
    | ub => rw [hm] at h; cases h
    | ok x =>
      rw [hm] at h
      rw [qcLine_read hz hm st]
      cases x with
      | none =>
        simp only at h
        obtain ⟨h1, h2⟩ := ih h st
        exact ⟨h1, by simpa using ⟨hc, h2⟩⟩
      | some r =>
        cases rows with
        | nil => cases h
        | cons r' rs =>
          simp only [Bool.and_eq_true, decide_eq_true_eq] at h
          obtain ⟨rfl, h⟩ := h
          refine ⟨?_, by simpa using ⟨hc, (ih h st).2⟩⟩
          unfold qcDo qcSteps
          simp only
          cases qcStep st r with
          | ok st' => exact (ih h st').1
          | complaint => rfl
          | ub => rfl

/-- A text found to have the lines `rows` is read as these. -/
theorem scan_qc_checked {lines : List Nat} {rows : List QcRow}
    (h : qcTextCheck lines rows = true) (h1 : ∀ r ∈ rows, r.first ≤ r.last)
    (h2 : rows.length < 140) :
    scanFile read_NFCQC [] (textOf lines) = .ok rows.reverse := by
  obtain ⟨h3, h4⟩ := qcTextCheck_ok h []
  unfold scanFile
  rw [textOf_fgets h4, h3, qcSteps_eq [] rows (by decide), if_pos ⟨h1, by simpa using h2⟩]
  simp

theorem gentr46map_checked {lm lq : List Nat} {rows : List MapRow} {qc : List QcRow}
    (hm : mapTextCheck lm rows = true) (hq : qcTextCheck lq qc = true)
    (h1 : ∀ r ∈ qc, r.first ≤ r.last) (h2 : qc.length < 140) {tbl : List IdnaRow} {T : Tables}
    (h : gentr46map rows qc tbl = .ok T) :
    gentr46map_text (textOf lm) (textOf lq) tbl = .ok T := by
  have hmap := scan_map_checked hm ⟨[], []⟩
  have hqc := scan_qc_checked hq h1 h2
  unfold gentr46map_text
  unfold gentr46map at h
  rw [hmap]
  cases hs : scanMappings ⟨[], []⟩ rows with
  | complaint => rw [hs] at h; cases h
  | ub => rw [hs] at h; cases h
  | ok st =>
    rw [hs] at h
    simp only [GRes.bind_ok]
    rw [hqc, GRes.bind_ok, List.reverse_reverse]
    exact h

/-! ### idna-tables-properties.csv -/

/-- The lines of the text after the first are `rows`. -/
noncomputable def csvLinesCheck : List Nat → List CsvRow → Bool
  | [], rows => rows.isEmpty
  | _ :: _, [] => false
  | n :: ns, r :: rs =>
    cleanR (bytesR 1022 n) &&
    match gendataLine (bytesR 1022 n ++ [10]) with
    | .ok none => decide (r.prop = .unassigned) && csvLinesCheck ns rs
    | .ok (some x) =>
      decide (r.prop ≠ .unassigned) && decide (readInit x = some ⟨r.first, r.last, r.prop⟩) &&
        csvLinesCheck ns rs
    | _ => false

noncomputable def csvTextCheck : List Nat → List CsvRow → Bool
  | [], _ => false
  | n :: ns, rows =>
    cleanR (bytesR 1022 n) && csvHeader.isPrefixOf (bytesR 1022 n) && csvLinesCheck ns rows

theorem csvLinesCheck_ok {lines : List Nat} {rows : List CsvRow}
    (h : csvLinesCheck lines rows = true) :
    (∃ out, gendataLines (lines.map fun n => bytesOf 1022 n ++ [10]) = .ok out ∧
      out.map readInit = (gendata rows).map some) ∧
    ∀ n ∈ lines, cleanLine (bytesOf 1022 n) = true := by
  induction lines generalizing rows with
  | nil =>
    cases rows with
    | nil => exact ⟨⟨[], rfl, rfl⟩, by simp⟩
    | cons r rs => simp [csvLinesCheck] at h
  | cons n ns ih =>
    cases rows with
    | nil => simp [csvLinesCheck] at h
    | cons r rs =>
      unfold csvLinesCheck at h
      rw [bytesR_eq, cleanR_eq] at h
      rw [Bool.and_eq_true] at h
      obtain ⟨hc, h⟩ := h
      have hz : 0 ∉ bytesOf 1022 n ++ [10] := by simp [(cleanLine_iff hc).1]
      rw [List.map_cons]
      unfold gendataLines
      rw [lineStr_eq hz]
      cases hm : gendataLine (bytesOf 1022 n ++ [10]) with
      | complaint => rw [hm] at h; cases h
      | ub => rw [hm] at h; cases h
      | ok x =>
        rw [hm] at h
        rw [GRes.bind_ok]
        cases x with
        | none =>
          simp only [Bool.and_eq_true, decide_eq_true_eq] at h
          obtain ⟨hu, h⟩ := h
          obtain ⟨⟨out, h3, h4⟩, h2⟩ := ih h
          refine ⟨⟨out, ?_, ?_⟩, by simpa using ⟨hc, h2⟩⟩
          · rw [h3]; rfl
          · rw [h4]; unfold gendata; rw [List.filter_cons_of_neg (by simp [hu])]
        | some x =>
          simp only [Bool.and_eq_true, decide_eq_true_eq] at h
          obtain ⟨⟨hu, hx⟩, h⟩ := h
          obtain ⟨⟨out, h3, h4⟩, h2⟩ := ih h
          refine ⟨⟨x :: out, ?_, ?_⟩, by simpa using ⟨hc, h2⟩⟩
          · rw [h3]; rfl
          · unfold gendata at h4 ⊢
            rw [List.filter_cons_of_pos (by simp [hu])]
            simp only [List.map_cons, hx, h4]

/-- A text found to have the lines `rows` is turned into the table of these. -/
theorem gendata_checked {lines : List Nat} {rows : List CsvRow}
    (h : csvTextCheck lines rows = true) :
    ∃ out, gendata_text (textOf lines) = .ok out ∧
      out.map readInit = (gendata rows).map some := by
  cases lines with
  | nil => simp [csvTextCheck] at h
  | cons n ns =>
    unfold csvTextCheck at h
    rw [bytesR_eq, cleanR_eq] at h
    simp only [Bool.and_eq_true] at h
    obtain ⟨⟨hc, hp⟩, h⟩ := h
    obtain ⟨h1, h2⟩ := csvLinesCheck_ok h
    have hz : 0 ∉ bytesOf 1022 n ++ [10] := by simp [(cleanLine_iff hc).1]
    unfold gendata_text
    rw [textOf_fgets (by simpa using ⟨hc, h2⟩), List.map_cons]
    simp only
    rw [lineStr_eq hz, if_pos]
    · exact h1
    · rw [List.isPrefixOf_iff_prefix] at hp ⊢
      exact hp.trans (List.prefix_append _ _)

/-! ### Putting pieces together -/

/-- Every piece of text is found to have the lines given for it. -/
inductive Pieces {α : Type} (check : List Nat → List α → Bool) :
    List (List Nat) → List (List α) → Prop
  | nil : Pieces check [] []
  | cons {ns : List Nat} {rows : List α} {ts : List (List Nat)} {rs : List (List α)} :
      check ns rows = true → Pieces check ts rs → Pieces check (ns :: ts) (rows :: rs)

theorem Pieces.flat {α : Type} {check : List Nat → List α → Bool} (h0 : check [] [] = true)
    (happ : ∀ a b x y, check a x = true → check b y = true → check (a ++ b) (x ++ y) = true)
    {ts : List (List Nat)} {rs : List (List α)} (h : Pieces check ts rs) :
    check ts.flatten rs.flatten = true := by
  induction h with
  | nil => exact h0
  | cons h _ ih =>
    rw [List.flatten_cons, List.flatten_cons]
    exact happ _ _ _ _ h ih

theorem mapTextCheck_append (a b : List Nat) (x y : List MapRow) (h : mapTextCheck a x = true)
    (h' : mapTextCheck b y = true) : mapTextCheck (a ++ b) (x ++ y) = true := by
  induction a generalizing x with
  | nil =>
    cases x with
    | nil => exact h'
    | cons r rs => simp [mapTextCheck] at h
  | cons n ns ih =>
    rw [List.cons_append]
    unfold mapTextCheck at h ⊢
    rw [Bool.and_eq_true] at h ⊢
    refine ⟨h.1, ?_⟩
    have h2 := h.2
    cases hm : mapLine (bytesR 1022 n ++ [10]) with
    | complaint => rw [hm] at h2; cases h2
    | ub => rw [hm] at h2; cases h2
    | ok o =>
      rw [hm] at h2
      cases o with
      | none => exact ih x h2
      | some r =>
        cases x with
        | nil => cases h2
        | cons r' rs =>
          simp only [List.cons_append, Bool.and_eq_true] at h2 ⊢
          exact ⟨h2.1, ih rs h2.2⟩

theorem qcTextCheck_append (a b : List Nat) (x y : List QcRow) (h : qcTextCheck a x = true)
    (h' : qcTextCheck b y = true) : qcTextCheck (a ++ b) (x ++ y) = true := by
  induction a generalizing x with
  | nil =>
    cases x with
    | nil => exact h'
    | cons r rs => simp [qcTextCheck] at h
  | cons n ns ih =>
    rw [List.cons_append]
    unfold qcTextCheck at h ⊢
    rw [Bool.and_eq_true] at h ⊢
    refine ⟨h.1, ?_⟩
    have h2 := h.2
    cases hm : qcLine (bytesR 1022 n ++ [10]) with
    | complaint => rw [hm] at h2; cases h2
    | ub => rw [hm] at h2; cases h2
    | ok o =>
      rw [hm] at h2
      cases o with
      | none => exact ih x h2
      | some r =>
        cases x with
        | nil => cases h2
        | cons r' rs =>
          simp only [List.cons_append, Bool.and_eq_true] at h2 ⊢
          exact ⟨h2.1, ih rs h2.2⟩

theorem csvLinesCheck_append (a b : List Nat) (x y : List CsvRow) (h : csvLinesCheck a x = true)
    (h' : csvLinesCheck b y = true) : csvLinesCheck (a ++ b) (x ++ y) = true := by
  induction a generalizing x with
  | nil =>
    cases x with
    | nil => exact h'
    | cons r rs => simp [csvLinesCheck] at h
  | cons n ns ih =>
    cases x with
    | nil => simp [csvLinesCheck] at h
    | cons r rs =>
      rw [List.cons_append, List.cons_append]
      unfold csvLinesCheck at h ⊢
      rw [Bool.and_eq_true] at h ⊢
      refine ⟨h.1, ?_⟩
      have h2 := h.2
      cases hm : gendataLine (bytesR 1022 n ++ [10]) with
      | complaint => rw [hm] at h2; cases h2
      | ub => rw [hm] at h2; cases h2
      | ok o =>
        rw [hm] at h2
        cases o with
        | none =>
          simp only [Bool.and_eq_true] at h2 ⊢
          exact ⟨h2.1, ih rs h2.2⟩
        | some z =>
          simp only [Bool.and_eq_true] at h2 ⊢
          exact ⟨h2.1, ih rs h2.2⟩

theorem map_pieces {ts : List (List Nat)} {rs : List (List MapRow)}
    (h : Pieces mapTextCheck ts rs) : mapTextCheck ts.flatten rs.flatten = true :=
  h.flat rfl mapTextCheck_append

theorem qc_pieces {ts : List (List Nat)} {rs : List (List QcRow)}
    (h : Pieces qcTextCheck ts rs) : qcTextCheck ts.flatten rs.flatten = true :=
  h.flat rfl qcTextCheck_append

theorem csv_pieces {ts : List (List Nat)} {rs : List (List CsvRow)}
    (h : Pieces csvLinesCheck ts rs) : csvLinesCheck ts.flatten rs.flatten = true :=
  h.flat rfl csvLinesCheck_append

end Idn2
