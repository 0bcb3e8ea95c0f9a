import Verif.Base

/-! # Unicode well-formedness (Unicode Standard, Table 3-7 "Well-Formed UTF-8 Byte Sequences") -/

namespace Xeus.Spec

/-- Well-formed UTF-8 byte sequences. -/
inductive Utf8 : Str → Prop
  | nil : Utf8 []
  | one {a s} : a ≤ 0x7F → Utf8 s → Utf8 (a :: s)
  | two {a b s} : 0xC2 ≤ a → a ≤ 0xDF → 0x80 ≤ b → b ≤ 0xBF → Utf8 s → Utf8 (a :: b :: s)
  | e0 {b c s} : 0xA0 ≤ b → b ≤ 0xBF → 0x80 ≤ c → c ≤ 0xBF → Utf8 s → Utf8 (0xE0 :: b :: c :: s)
  | e1ec {a b c s} : 0xE1 ≤ a → a ≤ 0xEC → 0x80 ≤ b → b ≤ 0xBF → 0x80 ≤ c → c ≤ 0xBF → Utf8 s →
      Utf8 (a :: b :: c :: s)
  | ed {b c s} : 0x80 ≤ b → b ≤ 0x9F → 0x80 ≤ c → c ≤ 0xBF → Utf8 s → Utf8 (0xED :: b :: c :: s)
  | eeef {a b c s} : 0xEE ≤ a → a ≤ 0xEF → 0x80 ≤ b → b ≤ 0xBF → 0x80 ≤ c → c ≤ 0xBF → Utf8 s →
      Utf8 (a :: b :: c :: s)
  | f0 {b c d s} : 0x90 ≤ b → b ≤ 0xBF → 0x80 ≤ c → c ≤ 0xBF → 0x80 ≤ d → d ≤ 0xBF → Utf8 s →
      Utf8 (0xF0 :: b :: c :: d :: s)
  | f1f3 {a b c d s} : 0xF1 ≤ a → a ≤ 0xF3 → 0x80 ≤ b → b ≤ 0xBF → 0x80 ≤ c → c ≤ 0xBF → 0x80 ≤ d →
      d ≤ 0xBF → Utf8 s → Utf8 (a :: b :: c :: d :: s)
  | f4 {b c d s} : 0x80 ≤ b → b ≤ 0x8F → 0x80 ≤ c → c ≤ 0xBF → 0x80 ≤ d → d ≤ 0xBF → Utf8 s →
      Utf8 (0xF4 :: b :: c :: d :: s)

end Xeus.Spec
