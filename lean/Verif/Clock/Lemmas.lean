import Verif.Clock.Spec
import Verif.Setup.Decimal

/-!
# Dates of messages: lemmas
-/

namespace Xeus.Clock

open Xeus Xeus.Clock.Spec

theorem field_pad2 {n : Nat} (h : n < 100) : Field (pad2 n) 2 n := by
  have : ∀ k : Fin 100, (pad2 k.val).length = 2 ∧ (pad2 k.val).all isDigit = true ∧ digitsVal 0 (pad2 k.val) = k.val := by
    decide +kernel
  have := this ⟨n, h⟩
  exact ⟨this.1, List.all_eq_true.1 this.2.1, this.2.2⟩

theorem natDigits_length {n k : Nat} (h1 : 10 ^ k ≤ n) (h2 : n < 10 ^ (k + 1)) : (natDigits n).length = k + 1 := by
  have hs := natDigits_spec n
  have hn := noLead_natDigits n
  have hb := (digitsVal_bounds (natDigits n) 0 hs.2.1).2
  rw [hs.2.2.1] at hb
  have l1 : k < (natDigits n).length := by
    refine (Nat.pow_lt_pow_iff_right (by omega : 1 < 10)).1 ?_
    omega
  have l2 : (natDigits n).length ≤ k + 1 := by
    cases hd : natDigits n with
    | nil => simp
    | cons c s =>
      rw [hd] at hn hs
      by_cases hz : c :: s = [48]
      · rw [hz]; simp
      · have := noLead_pos hn hz
        rw [hs.2.2.1] at this
        have h3 : 10 ^ s.length < 10 ^ (k + 1) := by omega
        have := (Nat.pow_lt_pow_iff_right (by omega : 1 < 10)).1 h3
        simp only [List.length_cons]
        omega
  omega

theorem field_natDigits (n : Nat) : Field (natDigits n) (natDigits n).length n :=
  ⟨rfl, (natDigits_spec n).2.1, (natDigits_spec n).2.2.1⟩

theorem field_inj {s t : Str} {k n m : Nat} (hs : Field s k n) (ht : Field t k m) (h : s = t) : n = m := by
  rw [← hs.2.2, ← ht.2.2, h]

theorem monthDays_le (y m : Nat) : 28 ≤ monthDays y m ∧ monthDays y m ≤ 31 := by
  unfold monthDays
  split
  · split <;> omega
  all_goals omega

theorem yearDays_ge (y : Nat) : 365 ≤ yearDays y ∧ yearDays y ≤ 366 := by
  unfold yearDays
  split <;> omega

theorem sum_ge (f : Nat → Nat) (c : Nat) (h : ∀ i, c ≤ f i) : ∀ n, c * n ≤ ((List.range n).map f).sum
  | 0 => by simp
  | n + 1 => by
    rw [List.range_succ, List.map_append, List.sum_append]
    have h1 := sum_ge f c h n
    have h2 := h n
    simp only [List.map_cons, List.map_nil, List.sum_cons, List.sum_nil]
    rw [Nat.mul_succ]
    omega

theorem year_lt {t : Utc} {n : Nat} (h : secondsOf t = n) (hn : n < 253000000000) : t.year < 10000 := by
  have h1 : 365 * (t.year - 1970) ≤ daysToYear t.year := sum_ge _ 365 (fun i => (yearDays_ge _).1) _
  unfold secondsOf at h
  generalize daysToYear t.year = a at *
  generalize daysToMonth t.year t.month = b at *
  omega

theorem daysToYear_succ {y : Nat} (h : 1970 ≤ y) : daysToYear (y + 1) = daysToYear y + yearDays y := by
  have : y + 1 - 1970 = (y - 1970) + 1 := by omega
  rw [daysToYear, this, List.range_succ, List.map_append, List.sum_append]
  have e : 1970 + (y - 1970) = y := by omega
  simp [daysToYear, e]

theorem daysToMonth_succ {y m : Nat} (h : 1 ≤ m) : daysToMonth y (m + 1) = daysToMonth y m + monthDays y m := by
  have : m + 1 - 1 = (m - 1) + 1 := by omega
  rw [daysToMonth, this, List.range_succ, List.map_append, List.sum_append]
  have e : m - 1 + 1 = m := by omega
  simp [daysToMonth, e]

theorem daysToMonth_13 (y : Nat) : daysToMonth y 13 = yearDays y := by
  simp only [daysToMonth, yearDays, monthDays, List.range, List.range.loop, List.map]
  split <;> simp

/-! ## A calendar -/

/-- The year and the day of the year of a day, counted from the first of January of `y`. -/
def yearOf : (fuel y days : Nat) → Nat × Nat
  | 0, y, days => (y, days)
  | fuel + 1, y, days => if days < yearDays y then (y, days) else yearOf fuel (y + 1) (days - yearDays y)

/-- The month and the day of the month. -/
def monthOf (y : Nat) : (fuel m days : Nat) → Nat × Nat
  | 0, m, days => (m, days)
  | fuel + 1, m, days => if days < monthDays y m then (m, days) else monthOf y fuel (m + 1) (days - monthDays y m)

/-- A `gmtime` that satisfies the law. -/
def stdGmtime (n : Nat) : Utc :=
  let yd := yearOf (n / 86400) 1970 (n / 86400)
  let md := monthOf yd.1 11 1 yd.2
  ⟨yd.1, md.1, md.2 + 1, n % 86400 / 3600, n % 3600 / 60, n % 60⟩

theorem yearOf_spec : ∀ fuel y days, 1970 ≤ y → days ≤ fuel →
    1970 ≤ (yearOf fuel y days).1 ∧ (yearOf fuel y days).2 < yearDays (yearOf fuel y days).1 ∧
    daysToYear (yearOf fuel y days).1 + (yearOf fuel y days).2 = daysToYear y + days
  | 0, y, days, hy, hd => by
    have := yearDays_ge y
    simp only [yearOf]
    exact ⟨hy, by omega, trivial⟩
  | fuel + 1, y, days, hy, hd => by
    have := yearDays_ge y
    simp only [yearOf]
    by_cases h : days < yearDays y
    · simp only [if_pos h]
      exact ⟨hy, h, trivial⟩
    · simp only [if_neg h]
      have ih := yearOf_spec fuel (y + 1) (days - yearDays y) (by omega) (by omega)
      rw [daysToYear_succ hy] at ih
      exact ⟨ih.1, ih.2.1, by omega⟩

theorem monthOf_spec (y : Nat) : ∀ fuel m days, 1 ≤ m → m + fuel = 12 → daysToMonth y m + days < yearDays y →
    1 ≤ (monthOf y fuel m days).1 ∧ (monthOf y fuel m days).1 ≤ 12 ∧
    (monthOf y fuel m days).2 < monthDays y (monthOf y fuel m days).1 ∧
    daysToMonth y (monthOf y fuel m days).1 + (monthOf y fuel m days).2 = daysToMonth y m + days
  | 0, m, days, hm, hf, hd => by
    have hm' : m = 12 := by omega
    subst hm'
    rw [← daysToMonth_13, daysToMonth_succ (m := 12) (by omega)] at hd
    simp only [monthOf]
    exact ⟨hm, by omega, by omega, trivial⟩
  | fuel + 1, m, days, hm, hf, hd => by
    simp only [monthOf]
    by_cases h : days < monthDays y m
    · simp only [if_pos h]
      exact ⟨hm, by omega, h, trivial⟩
    · simp only [if_neg h]
      have hs := daysToMonth_succ (y := y) hm
      have ih := monthOf_spec y fuel (m + 1) (days - monthDays y m) (by omega) (by omega) (by omega)
      exact ⟨ih.1, ih.2.1, ih.2.2.1, by omega⟩

theorem stdGmtime_utc : IsUtc stdGmtime := by
  intro n
  have h1 := yearOf_spec (n / 86400) 1970 (n / 86400) (by omega) (by omega)
  have e0 : daysToYear 1970 = 0 := by decide
  rw [e0, Nat.zero_add] at h1
  unfold stdGmtime
  generalize yearOf (n / 86400) 1970 (n / 86400) = yd at h1
  have e1 : daysToMonth yd.1 1 = 0 := by simp [daysToMonth]
  have h2 := monthOf_spec yd.1 11 1 yd.2 (by omega) (by omega) (by omega)
  rw [e1, Nat.zero_add] at h2
  dsimp only
  generalize monthOf yd.1 11 1 yd.2 = md at h2
  refine ⟨⟨h1.1, h2.1, h2.2.1, Nat.le_add_left 1 _, h2.2.2.1, ?_, ?_, ?_⟩, ?_⟩
  · show n % 86400 / 3600 < 24
    omega
  · show n % 3600 / 60 < 60
    omega
  · show n % 60 < 60
    omega
  · simp only [secondsOf, Nat.add_sub_cancel]
    generalize daysToYear yd.1 = a at *
    generalize daysToMonth yd.1 md.1 = b at *
    have : a + b + md.2 = n / 86400 := by omega
    rw [this]
    omega

end Xeus.Clock
