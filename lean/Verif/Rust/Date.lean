import Verif.Rust.Prim
/-
chrono 0.4: `NaiveDateTime::from_timestamp_millis(t).unwrap_or_default().and_utc().to_rfc3339_opts(SecondsFormat::Millis, true)`, the text of a
`SiemField::Date` (/repo/src/events/field.rs lines 64-71). The first and the last year chrono supports differ between its versions and
are parameters.
-/
namespace USiem.Chrono

/-- The leap years among the first `y` years of a cycle of 400 (chrono's table `YEAR_DELTAS`). -/
def yearDelta (y : Int) : Int := (y + 3) / 4 - (y + 99) / 100 + (y + 399) / 400

/-- Year of the cycle and day of the year (from 0) of a day of the cycle, chrono's `cycle_to_yo`. -/
def cycleToYo (cycle : Int) : Int × Int :=
  let y := cycle / 365
  let o := cycle % 365
  if o < yearDelta y then (y - 1, o + (365 - yearDelta (y - 1))) else (y, o - yearDelta y)

/-- `isLeap`, as in chrono's `YearFlags`. -/
def isLeap (y : Int) : Bool := y % 4 == 0 && (y % 100 != 0 || y % 400 == 0)

def months (leap : Bool) : List Int := [31, if leap then 29 else 28, 31, 30, 31, 30, 31, 31, 30, 31, 30, 31]

/-- Month and day of the month of a day of the year (from 0). -/
def monthDay (m : Int) : List Int → Int → Int × Int
  | [], o => (m, o + 1)
  | l :: ls, o => if o < l then (m, o + 1) else monthDay (m + 1) ls (o - l)

/-- Year, month and day of the `n`-th day after 1970-01-01, chrono's `NaiveDate::from_num_days_from_ce_opt(n + 719163)` without the
test of the range. -/
def civil (n : Int) : Int × Int × Int :=
  let days := n + 719163 + 365
  let (yearMod, ordinal) := cycleToYo (days % 146097)
  let year := days / 146097 * 400 + yearMod
  let (m, d) := monthDay 1 (months (isLeap year)) ordinal
  (year, m, d)

/-- A number with leading zeros up to a width. -/
def padded (w n : Nat) : Str := List.replicate (w - (decStr n).length) '0' ++ decStr n

/-- The year: four digits, or `{:+05}`. -/
def yearStr (y : Int) : Str :=
  if 0 ≤ y ∧ y ≤ 9999 then padded 4 y.natAbs
  else if y < 0 then '-' :: padded 4 y.natAbs
  else '+' :: padded 4 y.natAbs

/-- The text of a date and a millisecond of the day. -/
def instantStr (date : Int × Int × Int) (ms : Int) : Str :=
  yearStr date.1 ++ chars% "-" ++ padded 2 date.2.1.natAbs ++ chars% "-" ++ padded 2 date.2.2.natAbs ++ chars% "T" ++
    padded 2 (ms / 3600000).natAbs ++ chars% ":" ++ padded 2 (ms / 60000 % 60).natAbs ++ chars% ":" ++
    padded 2 (ms / 1000 % 60).natAbs ++ chars% "." ++ padded 3 (ms % 1000).natAbs ++ chars% "Z"

/-- The text of a timestamp in milliseconds; the default instant is the first of 1970. -/
def dateStr (minYear maxYear : Int) (t : Int) : Str :=
  let date := civil (t / 86400000)
  if minYear ≤ date.1 ∧ date.1 ≤ maxYear then instantStr date (t % 86400000) else instantStr (1970, 1, 1) 0

end USiem.Chrono
