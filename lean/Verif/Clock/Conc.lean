import Verif.Clock.Model

/-!
# Dates made by several threads: the model

Every message has a header with a date (`make_header`, src/xmessage.cpp:251-263), so that the shell thread and the control thread
of the split servers may both be inside `iso8601_now` (src/xmessage.cpp:227-244).  `std::gmtime` (line 236) returns a pointer to
one `std::tm` shared by all threads ([ctime.syn], C11 7.27.3): it writes the fields there and `std::put_time` reads them from
there, without any lock.  One step of a thread is one access to a field; any thread may take the next step.  The order in which
`gmtime` writes the fields is left open, `put_time` reads them in the order of `%FT%T`.

Simplifications: accesses are sequentially consistent; the fields are those of `Utc`.
-/

namespace Xeus.Clock

open Xeus

/-- The fields of the shared `std::tm`. -/
inductive Part where
  | year | month | day | hour | minute | second
  deriving DecidableEq, Repr

/-- A field of a broken-down time. -/
def Utc.get (t : Utc) : Part → Nat
  | .year => t.year
  | .month => t.month
  | .day => t.day
  | .hour => t.hour
  | .minute => t.minute
  | .second => t.second

/-- The fields in the order of `%FT%T` (src/xmessage.cpp:236). -/
def Part.all : List Part := [.year, .month, .day, .hour, .minute, .second]

/-- The time of which `put_time` has read these fields. -/
def gather (v : Part → Nat) : Utc := ⟨v .year, v .month, v .day, v .hour, v .minute, v .second⟩

/-- Where a thread is inside `iso8601_now`. -/
inductive Pc where
  | idle
  /-- in `std::gmtime` for the instant `now`; the fields `todo` have to be written -/
  | fill (now : Nat) (todo : List Part)
  /-- in `std::put_time`; the fields `todo` have to be read, the others had the values `got` -/
  | print (now : Nat) (todo : List Part) (got : Part → Nat)

/-- What happens: calls of `iso8601_now` by a thread. -/
inductive Call where
  /-- `system_clock::now()` returned `now` (src/xmessage.cpp:232) -/
  | began (i : Nat) (now : Nat)
  /-- the text is returned (src/xmessage.cpp:243) -/
  | ended (i : Nat) (text : Str)
  deriving DecidableEq, Repr

/-- Which thread. -/
def Call.thread : Call → Nat
  | .began i _ => i
  | .ended i _ => i

/-- The shared `std::tm`, the threads, and the calls so far. -/
structure Dates where
  buf : Part → Nat
  pc : Nat → Pc
  log : List Call

/-- Replacement of one value. -/
def put {α β : Type} [DecidableEq α] (f : α → β) (a : α) (b : β) : α → β := fun x => if x = a then b else f x

/-- The text for the instant `now` when `put_time` printed `t` (src/xmessage.cpp:236-243). -/
def textOf (t : Utc) (now : Nat) : Str := putTime t ++ lit "." ++ natDigits (now / 1000 % 1000000) ++ lit "Z"

/-- The steps. -/
inductive Dates.Step (gmtime : Nat → Utc) : Dates → Dates → Prop
  | start (s : Dates) (i now : Nat) : s.pc i = .idle →
      Step gmtime s { s with pc := put s.pc i (.fill now Part.all), log := s.log ++ [.began i now] }
  | write (s : Dates) (i now : Nat) (todo : List Part) (p : Part) : s.pc i = .fill now todo → p ∈ todo →
      Step gmtime s { s with pc := put s.pc i (.fill now (todo.filter (· ≠ p))),
                             buf := put s.buf p ((gmtime (now / 1000000000)).get p) }
  | written (s : Dates) (i now : Nat) : s.pc i = .fill now [] →
      Step gmtime s { s with pc := put s.pc i (.print now Part.all fun _ => 0) }
  | read (s : Dates) (i now : Nat) (p : Part) (todo : List Part) (got : Part → Nat) : s.pc i = .print now (p :: todo) got →
      Step gmtime s { s with pc := put s.pc i (.print now todo (put got p (s.buf p))) }
  | finish (s : Dates) (i now : Nat) (got : Part → Nat) : s.pc i = .print now [] got →
      Step gmtime s { s with pc := put s.pc i .idle, log := s.log ++ [.ended i (textOf (gather got) now)] }

/-- Reachable states. -/
inductive Dates.Reach (gmtime : Nat → Utc) : Dates → Prop
  | init (buf : Part → Nat) : Reach gmtime ⟨buf, fun _ => .idle, []⟩
  | step {s s' : Dates} : Reach gmtime s → Dates.Step gmtime s s' → Reach gmtime s'

end Xeus.Clock
