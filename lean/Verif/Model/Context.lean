import Verif.Model.Env

/-
Contextual rules; lib/context.c.
-/

namespace Idn2

/-- `UC_CCC_VR` of libunistring; used in context.c:57,106. -/
def UC_CCC_VR : Nat := 9

/-- `label[i]`; outside of the array it is undefined;
context.c:44,55,74,87,104,129,142,151,162,181,201,213. -/
def rd (label : List Nat) (i : Nat) : Res Nat :=
  match label[i]? with
  | some c => .ok c
  | none => .ub

/-- The backward search; context.c:71-82. -/
def ctxjBack (U : Uni) (label : List Nat) : Nat → Res Unit
  | 0 => do
    let c ← rd label 0
    let jt := U.joining c
    if jt = .L ∨ jt = .D then .ok ()
    else .err .contextj
  | tmp + 1 => do
    let c ← rd label (tmp + 1)
    let jt := U.joining c
    if jt = .L ∨ jt = .D then .ok ()
    else if jt = .T then ctxjBack U label tmp
    else .err .contextj

/-- The forward search; context.c:84-95.  `k` is `llen - tmp`. -/
def ctxjFwd (U : Uni) (label : List Nat) : Nat → Nat → Res Unit
  | 0, _ => .ok ()
  | k + 1, tmp => do
    let c ← rd label tmp
    let jt := U.joining c
    if jt = .R ∨ jt = .D then .ok ()
    else if tmp = label.length - 1 then .err .contextj
    else if jt = .T then ctxjFwd U label k (tmp + 1)
    else .err .contextj

/-- "The character before `pos` is a virama", written out for both rules;
context.c:57-62, 99-104. -/
def vrBefore (U : Uni) (label : List Nat) (pos : Nat) : Res Bool :=
  if pos > 0 then do
    let before ← rd label (pos - 1)
    return U.ccc before == UC_CCC_VR
  else .ok false

/-- `_idn2_contextj_rule`; context.c:36-113. -/
def contextj_rule (E : Env) (label : List Nat) (pos : Nat) : Res Unit :=
  if label.length = 0 then .ok ()
  else do
    let cp ← rd label pos
    let isj ← contextj_p E.T cp
    if !isj then .ok ()
    else if cp = 0x200C then do
      let vr ← vrBefore E.U label pos
      if vr then .ok ()
      else if pos = 0 ∨ pos = label.length - 1 then .err .contextj
      else do
        ctxjBack E.U label (pos - 1)
        ctxjFwd E.U label (label.length - (pos + 1)) (pos + 1)
    else if cp = 0x200D then do
      let vr ← vrBefore E.U label pos
      if vr then .ok () else .err .contextj
    else .err .contextjNoRule

/-- `_idn2_contexto_rule`; context.c:126-226. -/
def contexto_rule (E : Env) (label : List Nat) (pos : Nat) : Res Unit := do
  let cp ← rd label pos
  let iso ← contexto_p E.T cp
  let llen := label.length
  if !iso then .ok ()
  else if cp = 0x00B7 then
    if llen < 3 then .err .contexto
    else if pos = 0 ∨ pos = llen - 1 then .err .contexto
    else do
      let a ← rd label (pos - 1)
      if a = 0x6C then do
        let b ← rd label (pos + 1)
        if b = 0x6C then .ok () else .err .contexto
      else .err .contexto
  else if cp = 0x0375 then
    if pos = llen - 1 then .err .contexto
    else do
      let b ← rd label (pos + 1)
      if E.U.script b = .greek then .ok () else .err .contexto
  else if cp = 0x05F3 ∨ cp = 0x05F4 then
    if pos = 0 then .err .contexto
    else do
      let a ← rd label (pos - 1)
      if E.U.script a = .hebrew then .ok () else .err .contexto
  else if 0x660 ≤ cp ∧ cp ≤ 0x669 then
    if label.any (fun c => decide (c ≥ 0x6F0 ∧ c ≤ 0x6F9)) then .err .contexto else .ok ()
  else if 0x6F0 ≤ cp ∧ cp ≤ 0x6F9 then
    if label.any (fun c => decide (c ≥ 0x660 ∧ c ≤ 0x669)) then .err .contexto else .ok ()
  else if cp = 0x30FB then
    if label.any (fun c => E.U.script c == .hiragana || E.U.script c == .katakana
        || E.U.script c == .han) then .ok () else .err .contexto
  else .err .contextoNoRule

/-- `_idn2_contexto_with_rule`; context.c:228-270. -/
def contexto_with_rule (cp : Nat) : Bool :=
  cp == 0x00B7 || cp == 0x0375 || cp == 0x05F3 || cp == 0x05F4
    || (0x660 ≤ cp && cp ≤ 0x669) || (0x6F0 ≤ cp && cp ≤ 0x6F9) || cp == 0x30FB

end Idn2
