import Verif.Utf8.Lemmas

/-!
# Property C10: UTF-8 validity test
-/

namespace Xeus

open Spec

/-- C10: the validity test is total (never indexes outside its table) and answers `true` exactly on the
well-formed UTF-8 byte sequences of the Unicode standard. -/
theorem C10_utf8_validity (s : Str) :
    isUtf8Valid s = .ok true ∧ Utf8 s ∨ isUtf8Valid s = .ok false ∧ ¬ Utf8 s := by
  rw [isUtf8Valid_eq]
  have h : (utf8Run 0 s == 0) = true ↔ Utf8 s := utf8b_iff s
  cases hb : (utf8Run 0 s == 0) with
  | true => exact .inl ⟨rfl, h.1 hb⟩
  | false => exact .inr ⟨rfl, fun hu => by rw [h.2 hu] at hb; simp at hb⟩

/-- C10: the classes of ill-formed input named in the property are indeed excluded by the grammar: no
overlong forms, no surrogates, nothing above U+10FFFF, no truncated sequence. -/
theorem C10_excluded (x y z : UInt8) (t : Str) :
    ¬ Utf8 (0xC0 :: x :: t) ∧ ¬ Utf8 (0xC1 :: x :: t) ∧
    (x < 0xA0 → ¬ Utf8 (0xE0 :: x :: y :: t)) ∧ (x < 0x90 → ¬ Utf8 (0xF0 :: x :: y :: z :: t)) ∧
    (0xA0 ≤ x → ¬ Utf8 (0xED :: x :: y :: t)) ∧ (0x90 ≤ x → ¬ Utf8 (0xF4 :: x :: y :: z :: t)) ∧
    (0xF5 ≤ x → ¬ Utf8 (x :: t)) ∧ (0xC2 ≤ x → ¬ Utf8 [x]) := by
  refine ⟨?_, ?_, ?_, ?_, ?_, ?_, ?_, ?_⟩
  · intro h; cases h <;> simp_all +decide
  · intro h; cases h <;> simp_all +decide
  · intro hx h; simp only [UInt8.lt_iff_toNat_lt, UInt8.le_iff_toNat_le] at *
    cases h <;> simp_all +decide [UInt8.le_iff_toNat_le] <;> omega
  · intro hx h; simp only [UInt8.lt_iff_toNat_lt, UInt8.le_iff_toNat_le] at *
    cases h <;> simp_all +decide [UInt8.le_iff_toNat_le] <;> omega
  · intro hx h; simp only [UInt8.lt_iff_toNat_lt, UInt8.le_iff_toNat_le] at *
    cases h <;> simp_all +decide [UInt8.le_iff_toNat_le] <;> omega
  · intro hx h; simp only [UInt8.lt_iff_toNat_lt, UInt8.le_iff_toNat_le] at *
    cases h <;> simp_all +decide [UInt8.le_iff_toNat_le] <;> omega
  · intro hx h; simp only [UInt8.lt_iff_toNat_lt, UInt8.le_iff_toNat_le] at *
    cases h <;> simp_all +decide [UInt8.le_iff_toNat_le] <;> omega
  · intro hx h; simp only [UInt8.lt_iff_toNat_lt, UInt8.le_iff_toNat_le] at *
    cases h <;> simp_all +decide [UInt8.le_iff_toNat_le] <;> omega

/-- a two-, a three- and a four-byte character -/
example : Utf8 [0xC3, 0xA9, 0xE2, 0x82, 0xAC, 0xF0, 0x9F, 0x98, 0x80] :=
  (utf8b_iff _).1 (by decide)
/-- an encoded surrogate -/
example : ¬ Utf8 [0xED, 0xA0, 0x80] := fun h => absurd ((utf8b_iff _).2 h) (by decide)

end Xeus
