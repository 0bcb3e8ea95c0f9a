import Verif.Clock.Model
import Verif.Digits

/-!
# Dates of messages: vocabulary of C68

The calendar, independently of how dates are computed or printed.
-/

namespace Xeus.Clock.Spec

open Xeus Xeus.Clock

def leap (y : Nat) : Bool := y % 4 = 0 && (y % 100 ≠ 0 || y % 400 = 0)

def monthDays (y : Nat) : Nat → Nat
  | 2 => if leap y then 29 else 28
  | 4 | 6 | 9 | 11 => 30
  | _ => 31

def yearDays (y : Nat) : Nat := if leap y then 366 else 365

/-- Days from the first of January 1970 to the first day of a year. -/
def daysToYear (y : Nat) : Nat := ((List.range (y - 1970)).map fun i => yearDays (1970 + i)).sum

/-- Days from the first day of the year to the first day of a month. -/
def daysToMonth (y m : Nat) : Nat := ((List.range (m - 1)).map fun i => monthDays y (i + 1)).sum

/-- A date after 1970 and a time of day. -/
def Valid (t : Utc) : Prop :=
  1970 ≤ t.year ∧ 1 ≤ t.month ∧ t.month ≤ 12 ∧ 1 ≤ t.day ∧ t.day ≤ monthDays t.year t.month ∧
  t.hour < 24 ∧ t.minute < 60 ∧ t.second < 60

/-- Seconds since the epoch. -/
def secondsOf (t : Utc) : Nat :=
  86400 * (daysToYear t.year + daysToMonth t.year t.month + (t.day - 1)) + 3600 * t.hour + 60 * t.minute + t.second

/-- What is assumed of `std::gmtime`. -/
def IsUtc (gmtime : Nat → Utc) : Prop := ∀ n, Valid (gmtime n) ∧ secondsOf (gmtime n) = n

/-- The text consists of `k` digits and has this value. -/
def Field (s : Str) (k n : Nat) : Prop := s.length = k ∧ (∀ c ∈ s, isDigit c = true) ∧ digitsVal 0 s = n

/-- The text is an ISO 8601 date `YYYY-MM-DDThh:mm:ss.f…fZ` that denotes the instant `secs + num / 10 ^ len` seconds after
the epoch. -/
def Denotes (text : Str) (secs num len : Nat) : Prop :=
  ∃ (t : Utc) (y mo d h mi s f : Str), Valid t ∧ secondsOf t = secs ∧
    text = y ++ 45 :: (mo ++ 45 :: (d ++ 84 :: (h ++ 58 :: (mi ++ 58 :: (s ++ 46 :: (f ++ [90])))))) ∧
    Field y 4 t.year ∧ Field mo 2 t.month ∧ Field d 2 t.day ∧ Field h 2 t.hour ∧ Field mi 2 t.minute ∧
    Field s 2 t.second ∧ Field f len num

end Xeus.Clock.Spec
