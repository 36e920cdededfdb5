import Verif.Model.IpcMessage

/-
Model of the time stamps of messages.
Source: /repo/cpp/common/src/IpcMessage.cpp: valid_msg_timestamp 677-690 and 700-704, get_msg_timestamp 311-314, the uses of
them 87-91 and 387.

The functions of boost that are called there, `to_iso_extended_string` and `parse_delimited_time`, are not in the
repository; they are modelled as in the sources of boost date_time (gregorian_calendar.ipp, date_parsing.hpp,
time_parsing.hpp, time_formatters.hpp), with a resolution of microseconds. A time is a number of microseconds that counts
from the day 0 of the calendar of boost (its Julian day number). Names of months are left out: a month that does not begin with
a digit is refused. Separators in numbers that come with a locale are left out.
-/
namespace Verif.Timestamp
open Verif.Ipc (Str)

/-- A date of boost, as in the time stamps of IpcMessage.cpp:677-690. -/
structure Date where
  year : Nat
  month : Nat
  day : Nat
  deriving DecidableEq, Repr

/-- `gregorian_calendar::day_number`, called in IpcMessage.cpp:683 by the parser of boost. -/
def dayNumber (d : Date) : Nat :=
  let a := (14 - d.month) / 12
  let y := d.year + 4800 - a
  let m := d.month + 12 * a - 3
  d.day + (153 * m + 2) / 5 + 365 * y + y / 4 - y / 100 + y / 400 - 32045

/-- `gregorian_calendar::from_day_number`, called for the text of a time stamp, IpcMessage.cpp:311-314. -/
def fromDayNumber (n : Nat) : Date :=
  let a := n + 32044
  let b := (4 * a + 3) / 146097
  let c := a - (146097 * b) / 4
  let d := (4 * c + 3) / 1461
  let e := c - (1461 * d) / 4
  let m := (5 * e + 2) / 153
  ⟨100 * b + d - 4800 + m / 10, m + 3 - 12 * (m / 10), e - (153 * m + 2) / 5 + 1⟩

/-- `is_leap_year`, for the check of a date that is parsed in IpcMessage.cpp:677-690. -/
def leap (y : Nat) : Bool := y % 4 == 0 && (y % 100 != 0 || y % 400 == 0)

/-- `end_of_month_day`, for the same check. -/
def lastDay (y m : Nat) : Nat :=
  if m = 2 then (if leap y then 29 else 28) else if m = 4 ∨ m = 6 ∨ m = 9 ∨ m = 11 then 30 else 31

/-- The constructor of a date throws otherwise. -/
def Date.ok (d : Date) : Bool :=
  1400 ≤ d.year && d.year ≤ 9999 && 1 ≤ d.month && d.month ≤ 12 && 1 ≤ d.day && d.day ≤ lastDay d.year d.month

/-- Microseconds of a day: the resolution of the times of IpcMessage.cpp:311-314. -/
def dayUs : Nat := 86400000000

/-! ## Writing -/

/-- Digits of the numbers in the text of a time stamp, IpcMessage.cpp:311-314. -/
def dig (n : Nat) : Char := Char.ofNat (48 + n)
/-- Two, four and six digits with leading zeros, IpcMessage.cpp:311-314. -/
def pad2 (n : Nat) : Str := [dig (n / 10), dig (n % 10)]
/-- See `pad2`. -/
def pad4 (n : Nat) : Str := pad2 (n / 100) ++ pad2 (n % 100)
/-- See `pad2`. -/
def pad6 (n : Nat) : Str := pad2 (n / 10000) ++ pad4 (n % 10000)

/-- The part after the seconds, if it is not zero. -/
def fraction (us : Nat) : Str := if us = 0 then [] else '.' :: pad6 us

/-- The time of day in the text of a time stamp, IpcMessage.cpp:311-314. -/
def clock (us : Nat) : Str :=
  pad2 (us / 3600000000) ++ ':' :: (pad2 (us / 60000000 % 60) ++ ':' :: (pad2 (us / 1000000 % 60) ++ fraction (us % 1000000)))

/-- `to_iso_extended_string` of a time in a year with four digits, IpcMessage.cpp:313 and 703. -/
def text (t : Nat) : Str :=
  let d := fromDayNumber (t / dayUs)
  pad4 d.year ++ '-' :: (pad2 d.month ++ '-' :: (pad2 d.day ++ 'T' :: clock (t % dayUs)))

/-! ## Reading -/

/-- `boost::tokenizer` with a `char_separator`: the parts between separators that are not empty. -/
def tokens (sep : List Char) : Str → Str → List Str
  | [], acc => if acc = [] then [] else [acc]
  | c :: s, acc =>
    if c ∈ sep then (if acc = [] then tokens sep s [] else acc :: tokens sep s [])
    else tokens sep s (acc ++ [c])

def digits : Str → Nat → Option Nat
  | [], n => some n
  | c :: s, n => if '0' ≤ c ∧ c ≤ '9' then digits s (10 * n + (c.toNat - 48)) else none

/-- `lexical_cast` to a type with the largest number `max`; a minus sign does not occur (it separates). -/
def number (max : Nat) (s : Str) : Option Nat :=
  let t := if s.head? = some '+' then s.tail else s
  if t = [] then none else (digits t 0).bind fun n => if n ≤ max then some n else none

/-- A month by its number. -/
def monthOf (s : Str) : Option Nat :=
  match s with
  | c :: _ => if '0' ≤ c ∧ c ≤ '9' then number 65535 s else none
  | [] => none

/-- The next part, with a default where there is none, and the rest of the parts. -/
def part (f : Str → Option Nat) : List Str → Option (Nat × List Str)
  | [] => some (0, [])
  | w :: ws => (f w).map fun n => (n, ws)

/-- `parse_date`. -/
def readDate (s : Str) : Option Date :=
  (part (number 65535) (tokens [',', '-', '.', ' ', '/'] s [])).bind fun y =>
  (part monthOf y.2).bind fun m =>
  (part (number 65535) m.2).bind fun d =>
  if Date.ok ⟨y.1, m.1, d.1⟩ then some ⟨y.1, m.1, d.1⟩ else none

/-- The fraction of a second: six digits, further ones are dropped. -/
def readFraction (w : Str) : Option Nat :=
  if 6 ≤ w.length then number 9223372036854775807 (w.take 6)
  else (number 9223372036854775807 w).map (· * 10 ^ (6 - w.length))

/-- `str_from_delimited_time_duration`: the numbers are not compared with 24 or 60. -/
def readClock (s : Str) : Option Int :=
  match s with
  | [] => none                                     -- `s.at(0)`
  | c :: _ =>
    (part (number 2147483647) (tokens ['-', ':', ',', '.'] s [])).bind fun h =>
    (part (number 65535) h.2).bind fun m =>
    (part (number 65535) m.2).bind fun sec =>
    (part readFraction sec.2).map fun f =>
    let ticks : Int := ((h.1 * 3600 + m.1 * 60 + sec.1) * 1000000 + f.1 : Nat)
    if c = '-' then -ticks else ticks

/-- `split` at the first separator. -/
def split (sep : Char) : Str → Str × Str
  | [] => ([], [])
  | c :: s => if c = sep then ([], s) else (c :: (split sep s).1, (split sep s).2)

/-- `valid_msg_timestamp` of a text, lines 677-690; `none`: `not_a_date_time`. -/
def parse (s : Str) : Option Int :=
  (readDate (split 'T' s).1).bind fun d =>
  (readClock (split 'T' s).2).map fun c => (dayNumber d * dayUs : Nat) + c

/-- The time stamps of messages; the text of one that is none is a word. -/
def times : Ipc.Times :=
  ⟨fun t => match t with
    | some t => text t
    | none => "not-a-date-time".toList,
   fun s => (parse s).map Int.toNat⟩

end Verif.Timestamp
