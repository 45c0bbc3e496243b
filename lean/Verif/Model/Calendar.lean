import Verif.Model.Segment
/-! Dates of offsets of pandas, for the calendar frequencies of `Verif/Model/Segment.lean`: `day` is the length of a day, 0 the
midnight of 1970-01-01. -/
namespace Oups.Segment

/-- Days from 1970-01-01 to the first day of the month, `m` counting months from January 1970 (Gregorian calendar). -/
def monthDays (m : Int) : Int :=
  let y := (m + 23638) / 12  -- years from March of year 0
  let k := (m + 23638) % 12
  365 * y + y / 4 - y / 100 + y / 400 + (153 * k + 2) / 5 - 719468

/-- `MS`: first days of months. -/
def monthBegin (day : Int) : Offset where
  date m := day * monthDays m
  guess x := x / day * 4800 / 146097

/-- `ME` (`M` before pandas 2.2): last days of months. -/
def monthEnd (day : Int) : Offset where
  date m := day * (monthDays (m + 1) - 1)
  guess x := x / day * 4800 / 146097

/-- `QS`: first days of quarters. -/
def quarterBegin (day : Int) : Offset where
  date q := day * monthDays (3 * q)
  guess x := x / day * 1600 / 146097

/-- `W`: weeks, all dates being the day of the week `w` (0: Thursday, that of 1970-01-01; 3: Sunday, default of pandas). -/
def week (day w : Int) : Offset where
  date i := day * (7 * i + w)
  guess x := x / day / 7

/-- `B`: from Monday to Friday. -/
def businessDay (day : Int) : Offset where
  date i := day * (7 * (i / 5) + i % 5 - 3)
  guess x := (x / day + 3) / 7 * 5

/-- `QS`, `YS` and others, as `QS-FEB`: first days of months every `p` months, `k` being the number of one of them. -/
def monthsBegin (day p k : Int) : Offset where
  date i := day * monthDays (p * i + k)
  guess x := x / day * 4800 / 146097 / p

/-- `QE`, `YE` and others, as `YE-MAR`: last days of months every `p` months. -/
def monthsEnd (day p k : Int) : Offset where
  date i := day * (monthDays (p * i + k + 1) - 1)
  guess x := x / day * 4800 / 146097 / p

/-- `SMS`: days 1 and 15 of months. -/
def semiMonthBegin (day : Int) : Offset where
  date i := day * (monthDays (i / 2) + 14 * (i % 2))
  guess x := x / day * 9600 / 146097

/-- `BMS`: first business days of months. -/
def businessMonthBegin (day : Int) : Offset where
  date m :=
    let d := monthDays m
    day * (if (d + 3) % 7 = 5 then d + 2 else if (d + 3) % 7 = 6 then d + 1 else d)
  guess x := x / day * 4800 / 146097

/-- `BME`: last business days of months. -/
def businessMonthEnd (day : Int) : Offset where
  date m :=
    let d := monthDays (m + 1) - 1
    day * (if (d + 3) % 7 = 5 then d - 1 else if (d + 3) % 7 = 6 then d - 2 else d)
  guess x := x / day * 4800 / 146097

end Oups.Segment
