import Verif.Model.FuzzMain

/-
What a run of the fuzz targets over the corpus should do.
-/

namespace Idn2.Spec

/-- The file can be read as a whole: its contents. -/
def contents (fs : Fs) (path : List Nat) : Option (List Nat) :=
  match fs.file path with
  | .file size (some bytes) => if size ≤ bytes.length then some (bytes.take size) else none
  | _ => none

/-- The inputs in a directory: the contents of the files that are not hidden, whose path has less
than 1024 bytes, and that can be read. -/
def corpus (fs : Fs) (dir : List Nat) : List (List Nat) :=
  ((fs.dir dir).getD []).filterMap fun name =>
    if name.head? ≠ some 0x2E ∧ dir.length + 1 + name.length < 1024 then
      contents fs (dir ++ 0x2F :: name)
    else none

/-- The inputs the target has been called with. -/
def tested (evs : List FuzzEv) : List (List Nat) :=
  evs.filterMap fun | .test d _ => some d | _ => none

/-- Every file that is opened is closed before the next one is opened. -/
inductive Paired : List FuzzEv → Prop
  | nil : Paired []
  | message (e : FuzzEv) (evs : List FuzzEv) : (∀ f, e ≠ .opened f) → e ≠ .closed → Paired evs →
      Paired (e :: evs)
  | file (f : List Nat) (e : FuzzEv) (evs : List FuzzEv) : (∀ f, e ≠ .opened f) → e ≠ .closed →
      Paired evs → Paired (.opened f :: e :: .closed :: evs)

/-- `b` is the last component of the path. -/
inductive LastComponent : List Nat → List Nat → Prop
  | plain (b : List Nat) : 0x2F ∉ b → LastComponent b b
  | path (pre b : List Nat) : 0x2F ∉ b → LastComponent (pre ++ 0x2F :: b) b

/-- No file is empty. -/
def NoEmptyFile (fs : Fs) : Prop := ∀ path bytes, fs.file path ≠ .file 0 (some bytes)

end Idn2.Spec
