import Verif.Json

/-!
# Doubles: exact text

A finite double is `±scaled / 2 ^ 1075`, hence exactly the decimal number `±(scaled * 5 ^ 1075)e-1075`.
-/

namespace Xeus.Double

/-- The bits but the sign. -/
def magnitude (x : Nat) : Nat :=
  if x < 9007199254740992 then x / 2
  else (x.log2 - 52) * 4503599627370496 + (x / 2 ^ (x.log2 - 52) - 4503599627370496)

def withSign (sign : Bool) (m : Nat) : UInt64 := UInt64.ofNat (m + if sign then 9223372036854775808 else 0)

/-- The double with the given sign and scaled value, if there is one. -/
def unscale (sign : Bool) (x : Nat) : Option UInt64 :=
  if isFinite (withSign sign (magnitude x)) && (neg (withSign sign (magnitude x)) == sign) &&
    (scaled (withSign sign (magnitude x)) == x) then some (withSign sign (magnitude x)) else none

theorem fields (b : UInt64) : b.toNat = (if neg b then 9223372036854775808 else 0) + expo b * 4503599627370496 + frac b ∧
    frac b < 4503599627370496 ∧ expo b < 2048 := by
  have := b.toNat_lt
  unfold neg expo frac
  by_cases h : 9223372036854775808 ≤ b.toNat <;> simp only [h, decide_true, decide_false, if_true, Bool.false_eq_true, if_false] <;>
    generalize b.toNat = n at * <;> omega

theorem unscale_scaled (b : UInt64) (h : isFinite b = true) : unscale (neg b) (scaled b) = some b := by
  obtain ⟨h1, h2, h3⟩ := fields b
  have key : magnitude (scaled b) = expo b * 4503599627370496 + frac b := by
    unfold magnitude scaled
    by_cases he : expo b = 0
    · simp only [he, if_true]
      have : frac b * 2 < 9007199254740992 := by omega
      simp only [this, if_true]
      omega
    · simp only [he, if_false]
      have hp : 2 ≤ 2 ^ expo b := by
        calc 2 = 2 ^ 1 := rfl
          _ ≤ 2 ^ expo b := Nat.pow_le_pow_right (by decide) (by omega)
      have hlog : ((frac b + 4503599627370496) * 2 ^ expo b).log2 = 52 + expo b := by
        rw [Nat.log2_eq_iff (Nat.mul_ne_zero (by omega) (by omega))]
        constructor
        · rw [Nat.pow_add]
          exact Nat.mul_le_mul_right _ (by have : (2:Nat) ^ 52 = 4503599627370496 := rfl; omega)
        · rw [show 52 + expo b + 1 = 53 + expo b by omega, Nat.pow_add]
          exact Nat.mul_lt_mul_of_pos_right (by have : (2:Nat) ^ 53 = 9007199254740992 := rfl; omega) (by omega)
      have hge : ¬ (frac b + 4503599627370496) * 2 ^ expo b < 9007199254740992 := by
        have := Nat.mul_le_mul (show 4503599627370496 ≤ frac b + 4503599627370496 by omega) hp
        omega
      simp only [hge, if_false, hlog, show 52 + expo b - 52 = expo b by omega]
      rw [Nat.mul_div_cancel _ (by omega)]
      omega
  have hb : withSign (neg b) (expo b * 4503599627370496 + frac b) = b := by
    unfold withSign
    rw [show expo b * 4503599627370496 + frac b + (if neg b then 9223372036854775808 else 0) = b.toNat by rw [h1]; omega]
    exact UInt64.ofNat_toNat
  unfold unscale
  simp only [key, hb, h, beq_self_eq_true, Bool.and_self, if_true]

theorem unscale_some {sign : Bool} {x : Nat} {b : UInt64} (h : unscale sign x = some b) :
    isFinite b = true ∧ neg b = sign ∧ scaled b = x := by
  unfold unscale at h
  split at h
  · next hc =>
    simp only [Bool.and_eq_true, beq_iff_eq] at hc
    obtain rfl := Option.some.inj h
    exact ⟨hc.1.1, hc.1.2, hc.2⟩
  · cases h

end Xeus.Double
