import Verif.Clock.Lemmas

/-!
# Property C68: dates of messages

Only the property theorems and the `example`s that instantiate their hypotheses.
-/

namespace Xeus

open Clock Clock.Spec

/-- C68: the date of a message is an ISO 8601 date that denotes the right second; its fraction is the number of
microseconds, written without leading zeros and therefore read as a fraction of as many digits as it happens to have. -/
theorem C68_seconds (gmtime : Nat → Utc) (hg : IsUtc gmtime) (now : Nat) (hn : now < 2 ^ 63) :
    ∃ len, Denotes (iso8601 gmtime now) (now / 1000000000) (now / 1000 % 1000000) len ∧
      1 ≤ len ∧ len ≤ 6 ∧ now / 1000 % 1000000 < 10 ^ len ∧ (1 < len → 10 ^ (len - 1) ≤ now / 1000 % 1000000) := by
  obtain ⟨hv, hs⟩ := hg (now / 1000000000)
  have hy := year_lt hs (by omega)
  have hm := monthDays_le (gmtime (now / 1000000000)).year (gmtime (now / 1000000000)).month
  obtain ⟨v1, v2, v3, v4, v5, v6, v7, v8⟩ := hv
  have hf := field_natDigits (now / 1000 % 1000000)
  have hy4 : Field (natDigits (gmtime (now / 1000000000)).year) 4 (gmtime (now / 1000000000)).year := by
    have h := field_natDigits (gmtime (now / 1000000000)).year
    rwa [natDigits_length (k := 3) (by omega) (by omega)] at h
  refine ⟨_, ⟨gmtime (now / 1000000000), _, _, _, _, _, _, _, ⟨v1, v2, v3, v4, v5, v6, v7, v8⟩, hs, ?_, hy4,
    field_pad2 (by omega), field_pad2 (by omega), field_pad2 (by omega), field_pad2 (by omega), field_pad2 (by omega), hf⟩, ?_⟩
  · have e1 : lit "-" = [45] := by decide
    have e2 : lit "T" = [84] := by decide
    have e3 : lit ":" = [58] := by decide
    have e4 : lit "." = [46] := by decide
    have e5 : lit "Z" = [90] := by decide
    simp only [iso8601, putTime, e1, e2, e3, e4, e5, List.append_assoc, List.cons_append, List.nil_append]
  · have hb := digitsVal_bounds _ 0 hf.2.1
    rw [hf.2.2] at hb
    have hne := (natDigits_spec (now / 1000 % 1000000)).1
    have hl : 1 ≤ (natDigits (now / 1000 % 1000000)).length := by
      cases h : natDigits (now / 1000 % 1000000) with
      | nil => exact absurd h hne
      | cons _ _ => simp
    have hlow : 1 < (natDigits (now / 1000 % 1000000)).length →
        10 ^ ((natDigits (now / 1000 % 1000000)).length - 1) ≤ now / 1000 % 1000000 := by
      intro h1
      have hnl := noLead_natDigits (now / 1000 % 1000000)
      have hv := hf.2.2
      revert hnl h1 hv
      cases natDigits (now / 1000 % 1000000) with
      | nil => intro h; simp at h
      | cons c s =>
        intro h1 hnl hv
        have hz : c :: s ≠ [48] := by
          rintro e
          rw [e] at h1
          simp at h1
        have := noLead_pos hnl hz
        rw [hv] at this
        simpa using this
    refine ⟨hl, ?_, by omega, hlow⟩
    by_cases h7 : 7 ≤ (natDigits (now / 1000 % 1000000)).length
    · have h1 := hlow (by omega)
      have h2 : 10 ^ 6 ≤ 10 ^ ((natDigits (now / 1000 % 1000000)).length - 1) := Nat.pow_le_pow_right (by omega) (by omega)
      have h3 : now / 1000 % 1000000 < 1000000 := Nat.mod_lt _ (by omega)
      have h4 : (10 : Nat) ^ 6 = 1000000 := by decide
      omega
    · omega

/-- C68: a date denotes at most one instant. -/
theorem C68_unique (text : Str) (secs num len secs' num' len' : Nat) (h : Denotes text secs num len)
    (h' : Denotes text secs' num' len') : secs = secs' ∧ num = num' ∧ len = len' := by
  obtain ⟨t, y, mo, d, h, mi, s, f, _, hs, he, f1, f2, f3, f4, f5, f6, f7⟩ := h
  obtain ⟨t', y', mo', d', h', mi', s', f', _, hs', he', g1, g2, g3, g4, g5, g6, g7⟩ := h'
  rw [he] at he'
  obtain ⟨e1, he'⟩ := List.append_inj he' (by rw [f1.1, g1.1])
  obtain ⟨e2, he'⟩ := List.append_inj (List.cons.inj he').2 (by rw [f2.1, g2.1])
  obtain ⟨e3, he'⟩ := List.append_inj (List.cons.inj he').2 (by rw [f3.1, g3.1])
  obtain ⟨e4, he'⟩ := List.append_inj (List.cons.inj he').2 (by rw [f4.1, g4.1])
  obtain ⟨e5, he'⟩ := List.append_inj (List.cons.inj he').2 (by rw [f5.1, g5.1])
  obtain ⟨e6, he'⟩ := List.append_inj (List.cons.inj he').2 (by rw [f6.1, g6.1])
  have e7 : f = f' := List.append_cancel_right (List.cons.inj he').2
  have ht : t = t' := by
    have a1 := field_inj f1 g1 e1
    have a2 := field_inj f2 g2 e2
    have a3 := field_inj f3 g3 e3
    have a4 := field_inj f4 g4 e4
    have a5 := field_inj f5 g5 e5
    have a6 := field_inj f6 g6 e6
    cases t
    cases t'
    simp only at a1 a2 a3 a4 a5 a6
    subst a1 a2 a3 a4 a5 a6
    rfl
  refine ⟨by rw [← hs, ← hs', ht], ?_, by rw [← f7.1, ← g7.1, e7]⟩
  rw [← f7.2.2, ← g7.2.2, e7]

/-- C68: the date denotes the instant to the microsecond exactly if the microseconds are 0 or at least 100000: if what it
denotes, `num / 10 ^ len`, is that number of millionths. -/
theorem C68_exact_iff (gmtime : Nat → Utc) (hg : IsUtc gmtime) (now : Nat) (hn : now < 2 ^ 63) (secs num len : Nat)
    (hd : Denotes (iso8601 gmtime now) secs num len) :
    (1000000 * num = (now / 1000 % 1000000) * 10 ^ len) ↔
      (now / 1000 % 1000000 = 0 ∨ 100000 ≤ now / 1000 % 1000000) := by
  obtain ⟨len', h1, h2, h3, h4, h5⟩ := C68_seconds gmtime hg now hn
  obtain ⟨_, rfl, rfl⟩ := C68_unique _ _ _ _ _ _ _ hd h1
  generalize now / 1000 % 1000000 = f at *
  have hl : len = 1 ∨ len = 2 ∨ len = 3 ∨ len = 4 ∨ len = 5 ∨ len = 6 := by omega
  rcases hl with rfl | rfl | rfl | rfl | rfl | rfl <;> simp at h4 h5 ⊢ <;> omega

/-- C68: dates of later seconds denote later instants. -/
theorem C68_order (gmtime : Nat → Utc) (hg : IsUtc gmtime) (now now' : Nat) (hn' : now' < 2 ^ 63)
    (h : now / 1000000000 < now' / 1000000000) (secs num len secs' num' len' : Nat)
    (hd : Denotes (iso8601 gmtime now) secs num len) (hd' : Denotes (iso8601 gmtime now') secs' num' len') : secs < secs' := by
  obtain ⟨l, h1, _⟩ := C68_seconds gmtime hg now (by omega)
  obtain ⟨l', h2, _⟩ := C68_seconds gmtime hg now' hn'
  have e1 := (C68_unique _ _ _ _ _ _ _ hd h1).1
  have e2 := (C68_unique _ _ _ _ _ _ _ hd' h2).1
  omega

/-- C68: within a second they need not: of two instants one microsecond apart, the later one may have the date that
denotes the earlier instant. -/
theorem C68_order_witness (gmtime : Nat → Utc) (hg : IsUtc gmtime) : ∃ now now', now < now' ∧ ∃ secs num len num' len',
    Denotes (iso8601 gmtime now) secs num len ∧ Denotes (iso8601 gmtime now') secs num' len' ∧
    num' * 10 ^ len < num * 10 ^ len' := by
  obtain ⟨l, h1, h2, h3, h4, h5⟩ := C68_seconds gmtime hg 1700000000000009000 (by decide)
  obtain ⟨l', g1, g2, g3, g4, g5⟩ := C68_seconds gmtime hg 1700000000000010000 (by decide)
  refine ⟨1700000000000009000, 1700000000000010000, by decide, _, _, _, _, _, h1, g1, ?_⟩
  have e : (1700000000000009000 : Nat) / 1000 % 1000000 = 9 := by decide
  have e' : (1700000000000010000 : Nat) / 1000 % 1000000 = 10 := by decide
  rw [e] at h4 h5 ⊢
  rw [e'] at g4 g5 ⊢
  have hl : l = 1 := by
    have : l = 1 ∨ l = 2 ∨ l = 3 ∨ l = 4 ∨ l = 5 ∨ l = 6 := by omega
    rcases this with rfl | rfl | rfl | rfl | rfl | rfl <;> simp at h5 ⊢
  have hl' : l' = 2 := by
    have : l' = 1 ∨ l' = 2 ∨ l' = 3 ∨ l' = 4 ∨ l' = 5 ∨ l' = 6 := by omega
    rcases this with rfl | rfl | rfl | rfl | rfl | rfl <;> simp at g4 g5 ⊢
  subst hl hl'
  decide

example : IsUtc stdGmtime := stdGmtime_utc

example : iso8601 stdGmtime 1700000000000009000 = lit "2023-11-14T22:13:20.9Z" := by decide +kernel

example : iso8601 stdGmtime 1709164800123456789 = lit "2024-02-29T00:00:00.123456Z" := by decide +kernel

end Xeus
