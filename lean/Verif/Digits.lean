import Verif.Base

/-! # Decimal text: facts about `natDigits` -/

namespace Xeus

/-- ASCII decimal digit. -/
def isDigit (c : UInt8) : Bool := 48 ≤ c && c ≤ 57

/-- Value of a decimal text, with accumulator. -/
def digitsVal (acc : Nat) : Str → Nat
  | [] => acc
  | c :: s => digitsVal (10 * acc + (c.toNat - 48)) s

theorem digit_toNat_fin : ∀ n : Fin 10, (digitChr n.val).toNat = 48 + n.val := by decide

theorem digit_toNat {n : Nat} (h : n < 10) : (digitChr n).toNat = 48 + n := digit_toNat_fin ⟨n, h⟩

theorem isDigit_fin : ∀ n : Fin 10, isDigit (digitChr n.val) = true := by decide

theorem isDigit_ofNat {n : Nat} (h : n < 10) : isDigit (digitChr n) = true := isDigit_fin ⟨n, h⟩

theorem digitsVal_append (acc : Nat) (s t : Str) :
    digitsVal acc (s ++ t) = digitsVal (digitsVal acc s) t := by
  induction s generalizing acc with
  | nil => rfl
  | cons c s ih => exact ih _

theorem digitsAux_spec (f n : Nat) (h : n < f) (acc : Str) :
    ∃ ds : Str, digitsAux f n acc = ds ++ acc ∧ ds ≠ [] ∧ (∀ c ∈ ds, isDigit c = true) ∧
      digitsVal 0 ds = n ∧ (0 < n → ds.head? ≠ some 48) ∧ (n = 0 → ds = [48]) := by
  induction f generalizing n acc with
  | zero => omega
  | succ f ih =>
    simp only [digitsAux]
    split
    · next hn =>
      have hm : n % 10 = n := Nat.mod_eq_of_lt hn
      refine ⟨[digitChr (n % 10)], rfl, by simp, ?_, ?_, ?_, ?_⟩
      · intro c hc
        simp only [List.mem_singleton] at hc; subst hc; exact isDigit_ofNat (by omega)
      · have h := digit_toNat (n := n % 10) (by omega)
        revert h
        generalize digitChr (n % 10) = c
        intro h
        unfold digitsVal; unfold digitsVal; rw [h]; clear h; omega
      · intro hp
        simp only [List.head?_cons, ne_eq, Option.some.injEq]
        intro he
        have := congrArg UInt8.toNat he
        rw [digit_toNat (n := n % 10) (by omega)] at this
        simp at this; omega
      · intro h0; subst h0; rfl
    · next hn =>
      have hn' : 10 ≤ n := by omega
      obtain ⟨ds, h1, h2, h3, h4, h5, _⟩ := ih (n / 10) (by omega) (digitChr (n % 10) :: acc)
      refine ⟨ds ++ [digitChr (n % 10)], by simp [h1], by simp, ?_, ?_, ?_, by omega⟩
      · intro c hc
        simp only [List.mem_append, List.mem_singleton] at hc
        rcases hc with hc | hc
        · exact h3 c hc
        · subst hc; exact isDigit_ofNat (by omega)
      · rw [digitsVal_append, h4]
        have h := digit_toNat (n := n % 10) (by omega)
        revert h
        generalize digitChr (n % 10) = c
        intro h
        unfold digitsVal; unfold digitsVal; rw [h]; clear h; omega
      · intro _
        have := h5 (by omega)
        cases ds with
        | nil => exact absurd rfl h2
        | cons d ds => simpa using this

theorem natDigits_spec (n : Nat) : natDigits n ≠ [] ∧ (∀ c ∈ natDigits n, isDigit c = true) ∧
    digitsVal 0 (natDigits n) = n ∧ (0 < n → (natDigits n).head? ≠ some 48) ∧
    (n = 0 → natDigits n = [48]) := by
  obtain ⟨ds, h1, h⟩ := digitsAux_spec (n + 1) n (by omega) []
  simp at h1
  rw [natDigits, h1]
  exact h

theorem natDigits_inj {a b : Nat} (h : natDigits a = natDigits b) : a = b := by
  rw [← (natDigits_spec a).2.2.1, h, (natDigits_spec b).2.2.1]

theorem isDigit_ascii {c : UInt8} (h : isDigit c = true) : 48 ≤ c.toNat ∧ c.toNat ≤ 57 := by
  simp only [isDigit, UInt8.le_iff_toNat_le] at h
  simpa using h

end Xeus
