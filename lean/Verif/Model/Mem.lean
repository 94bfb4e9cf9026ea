import Verif.Basic

/-
The memory interface of the model.

Functions of the library that allocate are written once, over any monad with the
operations of the class `CMem`.  Two instances are used: `Out`, in which allocation
always succeeds and nothing is tracked (the functional behaviour), and `HeapM`, in which
there is a set of live blocks and an arbitrary schedule saying which allocations fail.
Block contents are carried by value; a block is represented by its identity only.
-/

namespace Idn2

/-- C memory operations: `malloc` (`none` is a null pointer), `free` of a non-null pointer,
`touch` (an access to the block), and undefined behaviour. (The C language and library, as used in
lib/*.c) -/
class CMem (m : Type → Type) extends Monad m where
  malloc : m (Option Nat)
  free : Nat → m Unit
  touch : Nat → m Unit
  ub : {α : Type} → m α

export CMem (malloc touch)

/-- `free (p)` where `p` may be the null pointer; free.c:49-52. -/
def freeOpt {m : Type → Type} [CMem m] : Option Nat → m Unit
  | none => pure ()
  | some p => CMem.free p

/-- An access to the block of `p`, if there is one. (No counterpart of its own; every use of a
pointer in lib/*.c) -/
def touchOpt {m : Type → Type} [CMem m] : Option Nat → m Unit
  | none => pure ()
  | some p => CMem.touch p

/-- `free (p)` for a pointer that is not null. (Calls of `free` in lib/*.c) -/
def cfree {m : Type → Type} [CMem m] (p : Nat) : m Unit := CMem.free p

/-- Undefined behaviour. (C11, 3.4.3) -/
def cub {m : Type → Type} [CMem m] {α : Type} : m α := CMem.ub

/-- Run a computation that does not allocate. (No counterpart of its own) -/
def liftR {m : Type → Type} [CMem m] {α : Type} : Res α → m (Except Rc α)
  | .ok a => pure (.ok a)
  | .err e => pure (.error e)
  | .ub => cub

/-! ### The functional instance -/

/-- A value or undefined behaviour. (No counterpart of its own) -/
inductive Out (α : Type) where
  | val (a : α)
  | ub
  deriving DecidableEq, Repr

namespace Out

/-- Sequencing. (No counterpart of its own) -/
def bind {α β : Type} : Out α → (α → Out β) → Out β
  | val a, f => f a
  | ub, _ => ub

instance : Monad Out where
  pure := val
  bind := bind

instance : CMem Out where
  malloc := val (some 0)
  free _ := val ()
  touch _ := val ()
  ub := ub

@[simp] theorem pure_eq {α : Type} (a : α) : (pure a : Out α) = val a := rfl
@[simp] theorem bind_val {α β : Type} (a : α) (f : α → Out β) : (val a >>= f) = f a := rfl
@[simp] theorem bind_ub {α β : Type} (f : α → Out β) : ((ub : Out α) >>= f) = ub := rfl
@[simp] theorem malloc_eq : (malloc : Out (Option Nat)) = val (some 0) := rfl
@[simp] theorem free_eq (p : Nat) : (cfree p : Out Unit) = val () := rfl
@[simp] theorem freeOpt_eq (p : Option Nat) : (freeOpt p : Out Unit) = val () := by
  cases p <;> rfl
@[simp] theorem touch_eq (p : Nat) : (touch p : Out Unit) = val () := rfl
@[simp] theorem touchOpt_eq (p : Option Nat) : (touchOpt p : Out Unit) = val () := by
  cases p <;> rfl
@[simp] theorem cub_eq {α : Type} : (cub : Out α) = ub := rfl
@[simp] theorem liftR_ok {α : Type} (a : α) : (liftR (.ok a) : Out (Except Rc α)) = val (.ok a) := rfl
@[simp] theorem liftR_err {α : Type} (e : Rc) :
    (liftR (.err e) : Out (Except Rc α)) = val (.error e) := rfl
@[simp] theorem liftR_ub {α : Type} : (liftR .ub : Out (Except Rc α)) = ub := rfl

end Out

/-! ### The heap instance -/

/-- Heap state: the identities of live blocks, a counter of allocation attempts (also the next
identity) and the schedule of failing allocations. (The C library) -/
structure Heap where
  live : List Nat
  count : Nat
  fails : Nat → Bool

/-- Computations over the heap. (No counterpart of its own) -/
def HeapM (α : Type) : Type := Heap → Out (α × Heap)

namespace HeapM

instance : Monad HeapM where
  pure a := fun h => .val (a, h)
  bind x f := fun h => match x h with
    | .val (a, h') => f a h'
    | .ub => .ub

instance : CMem HeapM where
  malloc := fun h =>
    if h.fails h.count then .val (none, { h with count := h.count + 1 })
    else .val (some h.count, { h with live := h.count :: h.live, count := h.count + 1 })
  free p := fun h => if p ∈ h.live then .val ((), { h with live := h.live.erase p }) else .ub
  touch p := fun h => if p ∈ h.live then .val ((), h) else .ub
  ub := fun _ => .ub

end HeapM

/-! ### Results of libunistring conversions and output parameters -/

/-- Result of a libunistring function returning an allocated array: the array with its block, or a
null pointer with `errno` ENOMEM or something else; the uses are idna.c:94-117,
lookup.c:164,276,399,473,668,811,868, register.c:249 and decode.c:110,197,318,371,435. -/
inductive LibRet (α : Type) where
  | val (a : α) (p : Nat)
  | enomem
  | other
  deriving DecidableEq, Repr

/-- A libunistring conversion: allocates its result. (The real functions may detect bad input
before they allocate or allocate several times; for the model one attempt is made first.)  The
calls are idna.c:94,105, lookup.c:164,276,399,473,668,811,868, register.c:249 and
decode.c:110,197,318,371,435. -/
def libConv {m : Type → Type} [CMem m] {α : Type} (f : Option α) : m (LibRet α) := do
  match ← malloc with
  | none => pure .enomem
  | some p =>
    match f with
    | some a => pure (.val a p)
    | none => do
      cfree p
      pure .other

/-- What an output parameter (`char **`, `uint32_t **`) holds: something the caller left there, a
null pointer, or a string in a malloc'ed block; idn2.h.in:213-232,311-330. -/
inductive Cell where
  | old (n : Nat)
  | null
  | buf (p : Nat) (s : List Nat)
  deriving DecidableEq, Repr

/-- The contents of a zero-terminated array: everything before the first zero; reading on past the
end of the array is undefined. (The arrays handed to the functions of lib/*.c) -/
def cstr : List Nat → Option (List Nat)
  | [] => none
  | c :: r => if c = 0 then some [] else (cstr r).map (c :: ·)

end Idn2
