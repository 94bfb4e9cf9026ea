import Verif.Model.Lookup
import Verif.Model.Register
import Verif.Model.Decode
import Verif.Model.Error
import Verif.Data.Laws
import Std.Data.HashMap

/-
Runs the model on the calls listed in vectors.txt.  The Unicode functions are built from the
character data of the Perl and Python installations (see mkucd.py); normalisation follows UAX #15.
-/

open Idn2
def N := 0x110000
structure Ucd where
  bin : ByteArray
  dec : Std.HashMap Nat (List Nat)
  comp : Std.HashMap (Nat × Nat) Nat
def Ucd.at (u : Ucd) (k c : Nat) : Nat := if c < N then (u.bin.get! (k * N + c)).toNat else 0
def Ucd.ccc (u : Ucd) (c : Nat) := u.at 4 c
/-- canonical ordering: insert -/
def insC (u : Ucd) (c : Nat) : List Nat → List Nat   -- reversed list
  | [] => [c]
  | d :: r => if u.ccc c ≠ 0 && u.ccc d > u.ccc c then d :: insC u c r else c :: d :: r
def nfd (u : Ucd) (s : List Nat) : List Nat :=
  ((s.flatMap fun c => (u.dec[c]?).getD [c]).foldl (fun acc c => insC u c acc) []).reverse
/-- compose: starter, pending (reversed), last ccc -/
partial def compose (u : Ucd) (out : Array Nat) (starter : Option Nat) (pend : Array Nat) (last : Nat) : List Nat → Array Nat
  | [] => match starter with | none => out ++ pend | some s => out.push s ++ pend
  | c :: r =>
    let k := u.ccc c
    match starter with
    | some s =>
      if pend.isEmpty || (last < k) then
        match u.comp[(s, c)]? with
        | some p => compose u out (some p) pend last r
        | none => if k = 0 then compose u (out.push s ++ pend) (some c) #[] 0 r
                  else compose u out starter (pend.push c) k r
      else if k = 0 then compose u (out.push s ++ pend) (some c) #[] 0 r
      else compose u out starter (pend.push c) k r
    | none => if k = 0 then compose u (out ++ pend) (some c) #[] 0 r else compose u out none (pend.push c) k r
def nfc (u : Ucd) (s : List Nat) : List Nat := (compose u #[] none #[] 0 (nfd u s)).toList
def mkUni (u : Ucd) (latin : Bool) : Uni where
  nfc s := if s.any (fun c => c ≥ N || (0xD800 ≤ c && c < 0xE000)) then none else some (nfc u s)
  ccc := u.ccc
  bidi c := #[Bidi.L, .R, .AL, .AN, .EN, .ES, .CS, .ET, .ON, .BN, .NSM, .other].getD (u.at 0 c) .other
  joining c := #[Joining.U, .T, .C, .L, .R, .D].getD (u.at 1 c) .U
  script c := #[Script.greek, .hebrew, .hiragana, .katakana, .han, .other].getD (u.at 2 c) .other
  isM c := u.at 3 c == 1
  fromLocale s := if latin then u8Encode s else (match u8Decode s with | some _ => some s | none => none)
  toLocale s := if latin then (match u8Decode s with | some l => if l.all (· < 256) then some l else none | none => none)
    else (match u8Decode s with | some _ => some s | none => none)
def hexv (c : Char) : Nat := if c.isDigit then c.toNat - 48 else c.toNat - 87
def unhex : List Char → List Nat
  | a :: b :: r => (hexv a * 16 + hexv b) :: unhex r
  | _ => []
def arg (s : String) : Option (List Nat) :=
  match s.toList with
  | 'x' :: r => some (unhex r)
  | 'u' :: r => some ((String.ofList r).splitOn "," |>.filterMap String.toNat?)
  | _ => none
def rcs : Option Rc → String | none => "0" | some e => toString e.code
def cell : Option Cell → String
  | some (.buf _ s) => toString s
  | some .null => "null" | some (.old n) => s!"old{n}" | none => "none"
def sh : Out (Option Rc × Option Cell) → String
  | .ub => "UB" | .val (rc, c) => rcs rc ++ " " ++ cell c
def shR : Res (List Nat) → String
  | .ub => "UB" | .err e => toString e.code ++ " -" | .ok l => s!"0 {l}"
def main (args : List String) : IO Unit := do
  let bin ← IO.FS.readBinFile (args[0]! ++ "/ucd.bin")
  let mut dec : Std.HashMap Nat (List Nat) := {}
  let mut comp : Std.HashMap (Nat × Nat) Nat := {}
  for l in (← IO.FS.lines (args[0]! ++ "/nfc.txt")) do
    match l.splitOn " " with
    | ["D", c, d] => dec := dec.insert c.toNat! ((d.splitOn ",").map String.toNat!)
    | ["C", a, b, c] => comp := comp.insert (a.toNat!, b.toNat!) c.toNat!
    | _ => pure ()
  let u : Ucd := ⟨bin, dec, comp⟩
  let E : Env := ⟨Shipped.T, mkUni u false⟩
  let E1 : Env := ⟨Shipped.T, mkUni u true⟩
  let lines ← IO.FS.lines (args[0]! ++ "/vectors.txt")
  let lo := args[1]!.toNat!
  let hi := args[2]!.toNat!
  for i in [lo:min hi lines.size] do
    match lines[i]!.splitOn " " with
    | [fn, fl, a, b] =>
      let f := fl.toNat!
      let x := arg a
      let y := arg b
      let o : Option Cell := some (.old 7)
      let r := match fn with
        | "lookup_u8" => sh (idn2_lookup_u8 E x o f)
        | "lookup_ul" => sh (idn2_lookup_ul E x o f)
        | "lookup_ul_latin1" => sh (idn2_lookup_ul E1 x o f)
        | "register_u8" => sh (idn2_register_u8 E x y o f)
        | "to_unicode_8z4z" => sh (idn2_to_unicode_8z4z x o f)
        | "to_unicode_4z4z" => (match x with
          | some s => (match u8Decode s with | some l => sh (idn2_to_unicode_4z4z (some l) o f) | none => "skip")
          | none => "skip")
        | "to_unicode_44i" => (match x with
          | some s => (match u8Decode s with
            | some l => (match (idn2_to_unicode_44i (some l) (some (List.replicate 127 0)) (some 127) f : Out _) with
              | .ub => "UB"
              | .val (rc, some b, some n) => rcs rc ++ " " ++ toString (b.take n)
              | .val _ => "?")
            | none => "skip")
          | none => "skip")
        | "to_unicode_8z8z" => sh (idn2_to_unicode_8z8z x o f)
        | "to_unicode_8zlz" => sh (idn2_to_unicode_8zlz E x o f)
        | "to_unicode_lzlz" => sh (idn2_to_unicode_lzlz E x o f)
        | "to_unicode_lzlz_latin1" => sh (idn2_to_unicode_lzlz E1 x o f)
        | "puny_encode" => shR (punycode_encode 8192 8192 (x.getD []))
        | "puny_decode" => shR (punycode_decode 8192 8192 (x.getD []))
        | "nfc" => toString (nfc u (x.getD []))
        | _ => "unknown"
      IO.println s!"{i} {r}"
    | _ => pure ()
