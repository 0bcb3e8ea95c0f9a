import Verif.Base

/-!
# Dates of messages: the model

Models `iso8601_now` (src/xmessage.cpp:227-244).  The instant is the number of nanoseconds since the epoch
(`std::chrono::system_clock`), taken to be after it; `std::gmtime` is a parameter.
-/

namespace Xeus.Clock

open Xeus

/-- The fields of `std::tm` that are printed; months and days count from 1, years from year 0. -/
structure Utc where
  year : Nat
  month : Nat
  day : Nat
  hour : Nat
  minute : Nat
  second : Nat
  deriving DecidableEq, Repr

/-- A field printed with at least two digits. -/
def pad2 (n : Nat) : Str := if n < 10 then 48 :: natDigits n else natDigits n

/-- `std::put_time(…, "%FT%T")` (src/xmessage.cpp:236): `%Y-%m-%dT%H:%M:%S`. -/
def putTime (t : Utc) : Str :=
  natDigits t.year ++ lit "-" ++ pad2 t.month ++ lit "-" ++ pad2 t.day ++ lit "T" ++
    pad2 t.hour ++ lit ":" ++ pad2 t.minute ++ lit ":" ++ pad2 t.second

/-- `iso8601_now` (src/xmessage.cpp:227-244) at `now` nanoseconds after the epoch. -/
def iso8601 (gmtime : Nat → Utc) (now : Nat) : Str :=
  putTime (gmtime (now / 1000000000)) ++ lit "." ++ natDigits (now / 1000 % 1000000) ++ lit "Z"

end Xeus.Clock
