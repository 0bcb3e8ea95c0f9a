import Verif.Dap.FramingSpec

/-!
# Header parts of the debug adapter's messages that announce no length: specification
-/

namespace Xeus.Spec

open Xeus

/-- `head` is a header part in which `field` is what follows the first `Content-Length: `, up to the first empty line. -/
def HasField (head field : Str) : Prop :=
  ∃ pre : Str, head = pre ++ lit "Content-Length: " ++ field ++ lit "\r\n\r\n" ∧
    (∀ u v, pre ++ lit "Content-Length: " = u ++ lit "Content-Length: " ++ v → v = []) ∧
    (∀ u v, field ++ lit "\r\n\r\n" = u ++ lit "\r\n\r\n" ++ v → v = [])

/-- White space: blank, tab, line feed, vertical tab, form feed, carriage return. -/
def White (c : UInt8) : Prop := c = 32 ∨ c = 9 ∨ c = 10 ∨ c = 11 ∨ c = 12 ∨ c = 13

/-- The text begins with a digit. -/
def StartsWithDigit : Str → Prop
  | [] => False
  | c :: _ => isDigit c = true

/-- `field` is, but for leading white space, a sign (or none) followed by the digits of a number, followed by anything else. -/
def Number (field sign : Str) (n : Nat) : Prop :=
  ∃ ws digits post : Str, field = ws ++ sign ++ digits ++ post ∧ (∀ c ∈ ws, White c) ∧ digits ≠ [] ∧
    (∀ c ∈ digits, isDigit c = true) ∧ ¬ StartsWithDigit post ∧ digitsVal 0 digits = n

/-- `field` is, but for leading white space, something that is not a number. -/
def NoNumber (field : Str) : Prop :=
  ∃ (ws : Str) (c : UInt8) (post : Str), field = ws ++ c :: post ∧ (∀ c ∈ ws, White c) ∧ ¬ White c ∧
    (isDigit c = false ∧ c ≠ 43 ∧ c ≠ 45 ∨ (c = 43 ∨ c = 45) ∧ ¬ StartsWithDigit post)

/-- The first `k` chunks contain these bytes, fewer do not. -/
def Arrives (cs : List Str) (bytes : Str) (k : Nat) : Prop :=
  k ≤ cs.length ∧ bytes <+: (cs.take k).flatten ∧ ∀ j < k, ¬ bytes <+: (cs.take j).flatten

end Xeus.Spec
