/-
Pieces of the Rust language and standard library used by the modelled code.
Nothing in this file models a file of /repo; it is part of the trusted reading of Rust.
-/
namespace USiem

/-- Rust `&str` / `String`: the list of its Unicode scalar values. -/
abbrev Str := List Char

/-- `chars% "abc"` is the list literal `['a', 'b', 'c'] : Str`. -/
macro "chars%" x:str : term => do
  let cs := x.getString.toList.toArray.map (fun c => Lean.Syntax.mkCharLit c)
  `(([$cs,*] : List Char))

/-- Outcome of running Rust code: a value, or a panic (index out of bounds, `unwrap` on `None`,
arithmetic overflow in a build with overflow checks, `todo!()`, `unreachable!()`, `panic!()`). -/
inductive Exec (α : Type u) where
  | ret (a : α)
  | panic
  deriving Repr, DecidableEq

deriving instance DecidableEq for Except

namespace Exec
def bind {α : Type u} {β : Type v} : Exec α → (α → Exec β) → Exec β
  | ret a, f => f a
  | panic, _ => panic

instance : Monad Exec where
  pure := ret
  bind := Exec.bind

@[simp] theorem pure_eq {α : Type u} (a : α) : (pure a : Exec α) = ret a := rfl
@[simp] theorem ret_bind {α β : Type u} (a : α) (f : α → Exec β) : (ret a >>= f) = f a := rfl
@[simp] theorem panic_bind {α β : Type u} (f : α → Exec β) : ((panic : Exec α) >>= f) = panic := rfl

instance : LawfulMonad Exec := LawfulMonad.mk' Exec
  (id_map := by intro α x; cases x <;> rfl)
  (pure_bind := by intros; rfl)
  (bind_assoc := by intro α β γ x f g; cases x <;> rfl)

/-- The code did not panic. -/
def Safe {α : Type u} (e : Exec α) : Prop := ∃ a, e = ret a
end Exec

/-- `str::split(p)` for a character predicate: the maximal pieces between separators.
Always at least one piece; empty pieces are kept. -/
def splitBy (p : Char → Bool) : Str → List Str
  | [] => [[]]
  | c :: cs =>
    if p c then [] :: splitBy p cs
    else match splitBy p cs with
      | [] => [[c]]
      | h :: t => (c :: h) :: t

/-- `pieces.join(sep)` for a one-element separator. -/
def joinWith {α : Type} (sep : α) : List (List α) → List α
  | [] => []
  | [a] => a
  | a :: b :: rest => a ++ sep :: joinWith sep (b :: rest)

/-- `slice.join(sep)` / `Vec<&str>::join(sep)` for a text separator. -/
def joinStr (sep : Str) : List Str → Str
  | [] => []
  | [a] => a
  | a :: b :: rest => a ++ sep ++ joinStr sep (b :: rest)

/-- `char::to_digit(radix)` for `radix ≤ 36`. -/
def digitVal (radix : Nat) (c : Char) : Option Nat :=
  let n := c.toNat
  let d := if 48 ≤ n ∧ n ≤ 57 then some (n - 48)
    else if 97 ≤ n ∧ n ≤ 122 then some (n - 87)
    else if 65 ≤ n ∧ n ≤ 90 then some (n - 55)
    else none
  d.filter (· < radix)

/-- The digit loop of `uN::from_str_radix`: checked multiply and add at every digit. -/
def parseDigits (radix max : Nat) : Nat → Str → Option Nat
  | acc, [] => some acc
  | acc, c :: cs =>
    match digitVal radix c with
    | none => none
    | some d =>
      if acc * radix + d ≤ max then parseDigits radix max (acc * radix + d) cs else none

/-- `uN::from_str_radix(s, radix)` with `uN::MAX = max` (`str::parse::<uN>` is radix 10):
the empty text and a lone sign are errors, one leading `+` is allowed, `-` is not a digit. -/
def parseUInt (radix max : Nat) : Str → Option Nat
  | [] => none
  | ['+'] => none
  | '+' :: cs => parseDigits radix max 0 cs
  | cs => parseDigits radix max 0 cs

/-- `format!("{}", n)` for an unsigned integer. -/
def decStr (n : Nat) : Str := Nat.toDigits 10 n

/-- `format!("{}", n)` for a signed integer. -/
def intStr (n : Int) : Str := if n < 0 then '-' :: decStr n.natAbs else decStr n.natAbs

/-- `format!("{:x}", n)`. -/
def hexStr (n : Nat) : Str := Nat.toDigits 16 n

/-- `format!("{:02x}", n)`. -/
def hex02 (n : Nat) : Str := if (hexStr n).length < 2 then '0' :: hexStr n else hexStr n

/-- `str::rfind(c)` used to cut: text before and after the last occurrence of `c`. -/
def cutLast (c : Char) (s : Str) : Option (Str × Str) :=
  match s with
  | [] => none
  | x :: xs =>
    match cutLast c xs with
    | some (a, b) => some (x :: a, b)
    | none => if x = c then some ([], xs) else none

/-- `char::is_ascii_digit`, `is_ascii_lowercase`, `is_ascii_uppercase`. -/
def isAsciiDigit (c : Char) : Bool := decide (48 ≤ c.toNat) && decide (c.toNat ≤ 57)
def isAsciiLower (c : Char) : Bool := decide (97 ≤ c.toNat) && decide (c.toNat ≤ 122)
def isAsciiUpper (c : Char) : Bool := decide (65 ≤ c.toNat) && decide (c.toNat ≤ 90)

/-- `char::to_ascii_lowercase` / `to_ascii_uppercase`. -/
def asciiLower (c : Char) : Char := if isAsciiUpper c then Char.ofNat (c.toNat + 32) else c
def asciiUpper (c : Char) : Char := if isAsciiLower c then Char.ofNat (c.toNat - 32) else c

/-- `str::eq_ignore_ascii_case`. -/
def eqIgnoreAsciiCase (a b : Str) : Bool := a.map asciiLower == b.map asciiLower

end USiem
