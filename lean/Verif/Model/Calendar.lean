import Verif.Rust.Prim
import Verif.Rust.OMap
/- Model of /repo/src/components/dataset/calendar.rs (the handle is in Model/Datasets.lean). -/
namespace USiem

/-- Milliseconds of a day, the literal `86400000` of calendar.rs. -/
abbrev dayMs : Int := 86400000

/-- `CalendarDataset`, calendar.rs lines 43-46. Times are `i64`, here integers: no operation of this file can overflow, since
every product is a multiple of a day not above the time it was derived from (except `(day + 1) * 86400000` with
`day < end_day`). -/
structure CalendarDataset where
  data : OMap Int (List (Int × Int × Str))

namespace CalendarDataset

/-- `new`, calendar.rs lines 49-51. -/
def new : CalendarDataset := { data := [] }

/-- Appending to the list of a day, creating it if needed: calendar.rs lines 57-65 and 80-88. -/
def push (d : CalendarDataset) (day : Int) (e : Int × Int × Str) : CalendarDataset :=
  match d.data.get? day with
  | some dt => { data := d.data.insert day (dt ++ [e]) }
  | none => { data := d.data.insert day [e] }

/-- The interval stored for one day of a longer entry, calendar.rs lines 70-78. -/
def daySpan (start end_ : Int) (startDay endDay day : Int) : Int × Int :=
  if day = endDay then (day * dayMs, end_)
  else if day = startDay then (start, day * dayMs)
  else (day * dayMs, (day + 1) * dayMs)

/-- The days of `for day in start_day..(end_day + 1)`. [src/components/dataset/calendar.rs line 67] -/
def dayRange (startDay endDay : Int) : List Int :=
  (List.range (endDay + 1 - startDay).toNat).map fun (n : Nat) => startDay + (n : Int)

/-- `insert`, calendar.rs lines 52-91. `/` on `i64` truncates towards zero. -/
def insert (d : CalendarDataset) (start end_ : Int) (data : Str) : CalendarDataset :=
  let startDay := start.tdiv dayMs
  let endDay := end_.tdiv dayMs
  if startDay - endDay = 0 then d.push startDay (start, end_, data)
  else (dayRange startDay endDay).foldl (fun d day =>
    let (startTime, endTime) := daySpan start end_ startDay endDay day
    d.push day (startTime, endTime, data)) d

/-- `get`, calendar.rs lines 93-109. -/
def get (d : CalendarDataset) (time : Int) : Option (List Str) :=
  let day := time.tdiv dayMs
  match d.data.get? day with
  | some v =>
    let toRet := v.filterMap fun e => if e.1 ≤ time ∧ e.2.1 ≥ time then some e.2.2 else none
    if toRet.isEmpty then none else some toRet
  | none => none

end CalendarDataset
end USiem
