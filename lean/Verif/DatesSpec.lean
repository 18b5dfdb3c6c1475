import Verif.NumbersSpec
import Verif.WellFormed
/-!
Specification of the written forms of dates and times (RFC 3501, section 9: `date`, `date-time`), for C32. That a date exists in the
calendar is `NaiveDate.Inv` and `DateTime.Inv` of `Verif.WellFormed`.
-/
namespace Imap.Spec
open Imap

/-- A numeral of a fixed number of digits and its value. -/
def Digits (k : Nat) (w : Bytes) (n : Nat) : Prop := Numeral w ∧ w.length = k ∧ value w = n

/-- The months, in lowercase. -/
def months : List Bytes :=
  [b!"jan", b!"feb", b!"mar", b!"apr", b!"may", b!"jun", b!"jul", b!"aug", b!"sep", b!"oct", b!"nov", b!"dec"]

/-- The name of the month `m`, in any letter case. -/
def Month (w : Bytes) (m : Nat) : Prop := 1 ≤ m ∧ months[m - 1]? = some (lowerAll w)

/-- `date-text`: a day of one or two digits, a month and a year of four digits. -/
def DateText (w : Bytes) (d : NaiveDate) : Prop :=
  ∃ wd wm wy, w = wd ++ b!"-" ++ wm ++ b!"-" ++ wy ∧ (Digits 1 wd d.day ∨ Digits 2 wd d.day) ∧ Month wm d.month ∧ Digits 4 wy d.year

/-- `date`: quotes are optional. -/
def Date (w : Bytes) (d : NaiveDate) : Prop := DateText w d ∨ ∃ u, w = b!"\"" ++ u ++ b!"\"" ∧ DateText u d

/-- `zone`: the sign, hours and minutes; east of Greenwich is positive. The offset is in seconds. -/
def Zone (w : Bytes) (offset : Int) : Prop :=
  ∃ wh wm hours minutes, Digits 2 wh hours ∧ Digits 2 wm minutes ∧
    ((w = b!"+" ++ wh ++ wm ∧ offset = 60 * (60 * hours + minutes)) ∨ (w = b!"-" ++ wh ++ wm ∧ offset = -60 * (60 * hours + minutes)))

/-- `date-time`: in quotes, a day (of two digits, or a space and a digit), a month, a year, the time and the zone. -/
def DateTimeText (w : Bytes) (t : DateTime) : Prop :=
  ∃ wd wm wy wh wi ws wz,
    w = b!"\"" ++ wd ++ b!"-" ++ wm ++ b!"-" ++ wy ++ b!" " ++ wh ++ b!":" ++ wi ++ b!":" ++ ws ++ b!" " ++ wz ++ b!"\"" ∧
    (Digits 2 wd t.date.day ∨ ∃ d, wd = b!" " ++ d ∧ Digits 1 d t.date.day) ∧ Month wm t.date.month ∧ Digits 4 wy t.date.year ∧
    Digits 2 wh t.hour ∧ Digits 2 wi t.minute ∧ Digits 2 ws t.second ∧ Zone wz t.offset

end Imap.Spec
