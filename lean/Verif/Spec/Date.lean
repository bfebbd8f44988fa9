import Verif.Spec.Text
/- The Gregorian calendar and RFC 3339 texts (C68). -/
namespace USiem.Spec

def LeapYear (y : Int) : Prop := 4 ∣ y ∧ (¬ 100 ∣ y ∨ 400 ∣ y)

instance (y : Int) : Decidable (LeapYear y) := inferInstanceAs (Decidable (_ ∧ _))

/-- The days of a month. -/
def monthLength (y m : Int) : Int :=
  if m = 2 then (if LeapYear y then 29 else 28) else if m = 4 ∨ m = 6 ∨ m = 9 ∨ m = 11 then 30 else 31

/-- Year, month, day. -/
abbrev Day := Int × Int × Int

def ValidDay : Day → Prop
  | (y, m, d) => 1 ≤ m ∧ m ≤ 12 ∧ 1 ≤ d ∧ d ≤ monthLength y m

/-- The following day. -/
def nextDay : Day → Day
  | (y, m, d) => if d < monthLength y m then (y, m, d + 1) else if m < 12 then (y, m + 1, 1) else (y + 1, 1, 1)

/-- The `n`-th day after the first of January 1970, counting forward and backward day by day. -/
inductive DayOf : Int → Day → Prop where
  | epoch : DayOf 0 (1970, 1, 1)
  | next {n : Int} {x : Day} : DayOf n x → DayOf (n + 1) (nextDay x)
  | previous {n : Int} {x : Day} : ValidDay x → DayOf (n + 1) (nextDay x) → DayOf n x

/-- `t` consists of `w` decimal digits denoting `v`. -/
def Digits (w : Nat) (t : Str) (v : Int) : Prop := t.length = w ∧ Decimal t v.toNat ∧ 0 ≤ v

/-- The text of a year: four digits, or a sign and at least four digits, with a leading zero only if they are four. -/
def YearText (t : Str) (y : Int) : Prop :=
  (0 ≤ y ∧ y ≤ 9999 ∧ Digits 4 t y) ∨
  ∃ s u, t = s :: u ∧ (s = '+' ∧ 9999 < y ∨ s = '-' ∧ y < 0) ∧ Decimal u y.natAbs ∧ 4 ≤ u.length ∧ (u.head? = some '0' → u.length = 4)

/-- `text` is the RFC 3339 text, in UTC and with milliseconds, of the instant `t` milliseconds after the beginning of 1970, which falls
on the day `x`. -/
def Rfc3339 (text : Str) (t : Int) (x : Day) : Prop :=
  ∃ (n h mi s ms : Int) (ty tm td th tmi ts tms : Str),
    DayOf n x ∧ t = n * 86400000 + h * 3600000 + mi * 60000 + s * 1000 + ms ∧
    h ≤ 23 ∧ mi ≤ 59 ∧ s ≤ 59 ∧ ms ≤ 999 ∧
    YearText ty x.1 ∧ Digits 2 tm x.2.1 ∧ Digits 2 td x.2.2 ∧ Digits 2 th h ∧ Digits 2 tmi mi ∧ Digits 2 ts s ∧ Digits 3 tms ms ∧
    text = ty ++ chars% "-" ++ tm ++ chars% "-" ++ td ++ chars% "T" ++ th ++ chars% ":" ++ tmi ++ chars% ":" ++ ts ++ chars% "." ++ tms ++ chars% "Z"

/-- The order of days. -/
def DayLt : Day → Day → Prop
  | (y, m, d), (y', m', d') => y < y' ∨ y = y' ∧ (m < m' ∨ m = m' ∧ d < d')

end USiem.Spec
