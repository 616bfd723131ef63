/-
Shared vocabulary of the model.

* `Bytes`  : Go `string` / `[]byte` contents.  A byte is represented by the character
             having that code; the modelled code only compares bytes with ASCII constants
             and copies them around.
* `Res`    : outcome of a Go call: a value, an error value, or a run-time panic.
* `ordinal`: the textual form of an ordinal parameter.
-/
namespace Verif

abbrev Bytes := List Char

open Lean in
/-- `b!"abc"` is the explicit list `['a', 'b', 'c']`. -/
macro:max "b!" s:str : term => do
  let cs := s.getString.toList.map (fun c => Syntax.mkCharLit c)
  `([$(cs.toArray),*])

/-- Outcome of a Go function that can fail.  `panic` is a Go run-time panic
(index out of range, nil dereference, ...). -/
inductive Res (ε α : Type) where
  | ok (a : α)
  | err (e : ε)
  | panic
deriving Repr, DecidableEq

namespace Res
variable {ε α β : Type}

def bind (r : Res ε α) (f : α → Res ε β) : Res ε β :=
  match r with
  | ok a => f a
  | err e => err e
  | panic => panic

def map (f : α → β) (r : Res ε α) : Res ε β :=
  match r with
  | ok a => ok (f a)
  | err e => err e
  | panic => panic

instance : Monad (Res ε) where
  pure := ok
  bind := bind

@[simp] theorem bind_ok (a : α) (f : α → Res ε β) : (ok a).bind f = f a := rfl
@[simp] theorem bind_err (e : ε) (f : α → Res ε β) : (err e).bind f = err e := rfl
@[simp] theorem bind_panic (f : α → Res ε β) : (panic : Res ε α).bind f = panic := rfl
@[simp] theorem bind_ok' (a : α) (f : α → Res ε β) : (ok a >>= f) = f a := rfl
@[simp] theorem bind_err' (e : ε) (f : α → Res ε β) : ((err e : Res ε α) >>= f) = err e := rfl
@[simp] theorem bind_panic' (f : α → Res ε β) : ((panic : Res ε α) >>= f) = panic := rfl
@[simp] theorem pure_ok (a : α) : (pure a : Res ε α) = ok a := rfl
@[simp] theorem map_ok (a : α) (f : α → β) : (ok a : Res ε α).map f = ok (f a) := rfl
@[simp] theorem map_err (e : ε) (f : α → β) : (err e : Res ε α).map f = err e := rfl
@[simp] theorem map_panic (f : α → β) : (panic : Res ε α).map f = panic := rfl

end Res

/-- `strconv.Itoa` / `strconv.FormatInt(n, 10)` on a non-negative number. -/
def itoa (n : Nat) : Bytes := Nat.toDigits 10 n

/-- The entry of `gosql.OrdinalParameters` for parameter number `n` (1-based): `$n`. -/
def ordinal (n : Nat) : Bytes := '$' :: itoa n

theorem itoa_ne_nil (n : Nat) : itoa n ≠ [] := Nat.toDigits_ne_nil

theorem itoa_inj {m n : Nat} (h : itoa m = itoa n) : m = n := by
  have := congrArg (fun l => Nat.ofDigitChars 10 l 0) h
  simpa [itoa] using this

theorem isDigit_of_mem_itoa {n : Nat} {c : Char} (h : c ∈ itoa n) : c.isDigit = true :=
  Nat.isDigit_of_mem_toDigits (by omega) (by omega) h

theorem ordinal_inj {m n : Nat} (h : ordinal m = ordinal n) : m = n := by
  unfold ordinal at h
  exact itoa_inj (List.cons.inj h).2

end Verif
