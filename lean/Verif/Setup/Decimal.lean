import Verif.Digits

/-!
# Decimal texts are unique
-/

namespace Xeus

theorem digit_ext {c d : UInt8} (hc : isDigit c = true) (hd : isDigit d = true) (h : c.toNat - 48 = d.toNat - 48) : c = d := by
  have h1 := isDigit_ascii hc
  have h2 := isDigit_ascii hd
  exact UInt8.toNat.inj (by omega)

theorem digit_step (x : Nat) {c : UInt8} (hc : isDigit c = true) : ∃ d, d < 10 ∧ c.toNat - 48 = d ∧
    ∀ s, digitsVal x (c :: s) = digitsVal (10 * x + d) s := by
  have h := isDigit_ascii hc
  refine ⟨c.toNat - 48, ?_, rfl, fun s => rfl⟩
  revert h
  generalize c.toNat = m
  intro h
  omega

/-- Texts of digits of the same length and value are equal. -/
theorem digitsVal_inj_len : ∀ {a b : Str} {x y : Nat}, a.length = b.length → (∀ c ∈ a, isDigit c = true) →
    (∀ c ∈ b, isDigit c = true) → digitsVal x a = digitsVal y b → x = y ∧ a = b
  | [], [], x, y, _, _, _, h => ⟨h, rfl⟩
  | c :: a, d :: b, x, y, hl, ha, hb, h => by
    have hc := ha c (by simp)
    have hd := hb d (by simp)
    obtain ⟨m, hm, em, h1⟩ := digit_step x hc
    obtain ⟨n, hn, en, h2⟩ := digit_step y hd
    rw [h1, h2] at h
    have ih := digitsVal_inj_len (by simpa using hl)
      (fun c h => ha c (by simp [h])) (fun c h => hb c (by simp [h])) h
    obtain ⟨e1, e2⟩ := ih
    have hmn : m = n := by omega
    have hcd : c = d := digit_ext hc hd (by rw [em, en, hmn])
    exact ⟨by omega, by rw [hcd, e2]⟩
  | [], _ :: _, _, _, hl, _, _, _ => by simp at hl
  | _ :: _, [], _, _, hl, _, _, _ => by simp at hl

theorem digitsVal_bounds (s : Str) : ∀ acc, (∀ c ∈ s, isDigit c = true) →
    acc * 10 ^ s.length ≤ digitsVal acc s ∧ digitsVal acc s < (acc + 1) * 10 ^ s.length := by
  induction s with
  | nil =>
    intro acc _
    rw [List.length_nil, Nat.pow_zero, Nat.mul_one, Nat.mul_one]
    exact ⟨Nat.le_refl _, Nat.lt_succ_self _⟩
  | cons c s ih =>
    intro acc h
    obtain ⟨d, hd, _, h1⟩ := digit_step acc (h c (by simp))
    have h2 := ih (10 * acc + d) (fun c h' => h c (List.mem_cons_of_mem _ h'))
    rw [h1, List.length_cons, Nat.pow_succ]
    revert h2
    generalize digitsVal (10 * acc + d) s = v
    generalize 10 ^ s.length = p
    intro h2
    have e1 : acc * (p * 10) = (10 * acc) * p := by
      rw [Nat.mul_comm p 10, ← Nat.mul_assoc, Nat.mul_comm acc 10]
    have e2 : (acc + 1) * (p * 10) = (10 * acc + 10) * p := by
      rw [Nat.mul_comm p 10, ← Nat.mul_assoc, Nat.mul_comm (acc + 1) 10, Nat.mul_add]
    have h3 : 10 * acc ≤ 10 * acc + d := by omega
    have h4 : 10 * acc + d + 1 ≤ 10 * acc + 10 := by omega
    rw [e1, e2]
    exact ⟨Nat.le_trans (Nat.mul_le_mul_right _ h3) h2.1, Nat.lt_of_lt_of_le h2.2 (Nat.mul_le_mul_right _ h4)⟩

/-- No leading zero. -/
def noLead (ds : Str) : Prop := ds ≠ [] ∧ (∀ c ∈ ds, isDigit c = true) ∧ (ds.head? = some 48 → ds = [48])

theorem noLead_natDigits (n : Nat) : noLead (natDigits n) := by
  have h := natDigits_spec n
  refine ⟨h.1, h.2.1, fun hh => ?_⟩
  rcases Nat.eq_zero_or_pos n with h0 | h0
  · exact h.2.2.2.2 h0
  · exact absurd hh (h.2.2.2.1 h0)

theorem noLead_pos {c : UInt8} {s : Str} (h : noLead (c :: s)) (hz : c :: s ≠ [48]) :
    10 ^ s.length ≤ digitsVal 0 (c :: s) := by
  have hc : c ≠ 48 := fun e => hz (h.2.2 (by simp [e]))
  obtain ⟨d, hd, ed, h1⟩ := digit_step 0 (h.2.1 c (by simp))
  have hd0 : d ≠ 0 := by
    rintro rfl
    exact hc (digit_ext (h.2.1 c (by simp)) (by decide) (by rw [ed]; decide))
  rw [h1]
  have := (digitsVal_bounds s (10 * 0 + d) (fun d hd => h.2.1 d (by simp [hd]))).1
  exact Nat.le_trans (Nat.le_trans (by simp) (Nat.mul_le_mul_right _ (by omega : 1 ≤ 10 * 0 + d))) this

/-- Decimal texts without leading zeros are determined by their value. -/
theorem noLead_inj {a b : Str} (ha : noLead a) (hb : noLead b) (h : digitsVal 0 a = digitsVal 0 b) : a = b := by
  have key : ∀ {a b : Str}, noLead a → noLead b → digitsVal 0 a = digitsVal 0 b → a.length ≤ b.length := by
    intro a b ha hb h
    by_cases hz : a = [48]
    · subst hz
      have := hb.1
      cases b with
      | nil => exact absurd rfl this
      | cons _ _ => simp
    · cases a with
      | nil => exact absurd rfl ha.1
      | cons c a =>
        have h1 := noLead_pos ha hz
        have h2 := (digitsVal_bounds b 0 hb.2.1).2
        rw [← h] at h2
        have h3 : 10 ^ a.length < 10 ^ b.length := by omega
        have := (Nat.pow_lt_pow_iff_right (by omega : 1 < 10)).1 h3
        simp; omega
  exact (digitsVal_inj_len (Nat.le_antisymm (key ha hb h) (key hb ha h.symm)) ha.2.1 hb.2.1 h).2

end Xeus
