import Verif.Digits

/-!
# The debug adapter protocol's base protocol: specification

A message is a header part, made of fields one of which is `Content-Length: <n>` and ended by an empty line,
followed by exactly `n` bytes.
-/

namespace Xeus.Spec

open Xeus

/-- A message as sent by a debug adapter. -/
structure DapMsg where
  head : Str
  body : Str
  deriving DecidableEq, Repr

/-- `head` announces `n` bytes: some text (other fields) in which the name `Content-Length: ` does not occur, then
`Content-Length: `, the decimal digits of `n`, then possibly other lines, then the first empty line. -/
def Announces (head : Str) (n : Nat) : Prop :=
  ∃ pre digits post : Str,
    head = pre ++ lit "Content-Length: " ++ digits ++ post ++ lit "\r\n\r\n" ∧
    (∀ u v, pre ++ lit "Content-Length: " = u ++ lit "Content-Length: " ++ v → v = []) ∧
    digits ≠ [] ∧ (∀ c ∈ digits, isDigit c = true) ∧ digitsVal 0 digits = n ∧
    (post = [] ∨ ∃ t, post = lit "\r\n" ++ t) ∧
    (∀ u v, digits ++ post ++ lit "\r\n\r\n" = u ++ lit "\r\n\r\n" ++ v → v = [])

/-- A well-formed message (whose length fits in 64 bits). -/
def DapMsg.Ok (m : DapMsg) : Prop := Announces m.head m.body.length ∧ m.body.length < 18446744073709551616

/-- The bytes of a sequence of messages. -/
def wireOfMsgs (ms : List DapMsg) : Str := ms.flatMap fun m => m.head ++ m.body

/-- The bodies of a sequence of messages. -/
def bodies (ms : List DapMsg) : List Str := ms.map DapMsg.body

/-- The first `k` chunks are exactly the first `n` messages, at least one. -/
def EndsMsg (cs : List Str) (ms : List DapMsg) (k n : Nat) : Prop :=
  0 < n ∧ n ≤ ms.length ∧ k ≤ cs.length ∧ (cs.take k).flatten = wireOfMsgs (ms.take n)

end Xeus.Spec
