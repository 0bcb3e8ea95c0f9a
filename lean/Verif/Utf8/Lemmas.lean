import Verif.Utf8.Model
import Verif.Utf8.Spec

/-! # UTF-8 validation: the automaton accepts exactly the Unicode grammar (helper lemmas) -/

namespace Xeus

open Spec

/-- The transition function in readable form. -/
def utf8Step (st : Nat) (b : UInt8) : Nat :=
  match st with
  | 0 =>
    if b ≤ 0x7F then 0
    else if 0xC2 ≤ b && b ≤ 0xDF then 2
    else if b == 0xE0 then 4
    else if b == 0xED then 5
    else if 0xE1 ≤ b && b ≤ 0xEF then 3
    else if b == 0xF0 then 6
    else if 0xF1 ≤ b && b ≤ 0xF3 then 7
    else if b == 0xF4 then 8
    else 1
  | 2 => if 0x80 ≤ b && b ≤ 0xBF then 0 else 1
  | 3 => if 0x80 ≤ b && b ≤ 0xBF then 2 else 1
  | 4 => if 0xA0 ≤ b && b ≤ 0xBF then 2 else 1
  | 5 => if 0x80 ≤ b && b ≤ 0x9F then 2 else 1
  | 6 => if 0x90 ≤ b && b ≤ 0xBF then 3 else 1
  | 7 => if 0x80 ≤ b && b ≤ 0xBF then 3 else 1
  | 8 => if 0x80 ≤ b && b ≤ 0x8F then 3 else 1
  | _ => 1

/-- Character class of a byte. -/
def utf8Cls (b : UInt8) : Nat :=
  if b ≤ 0x7F then 0 else if b ≤ 0x8F then 1 else if b ≤ 0x9F then 9 else if b ≤ 0xBF then 7
  else if b ≤ 0xC1 then 8 else if b ≤ 0xDF then 2 else if b == 0xE0 then 10 else if b == 0xED then 4
  else if b ≤ 0xEF then 3 else if b == 0xF0 then 11 else if b ≤ 0xF3 then 6 else if b == 0xF4 then 5
  else 8

/-- Transition on a character class. -/
def utf8Tr (st t : Nat) : Nat :=
  match st, t with
  | 0, 0 => 0 | 0, 2 => 2 | 0, 3 => 3 | 0, 4 => 5 | 0, 5 => 8 | 0, 6 => 7 | 0, 10 => 4 | 0, 11 => 6
  | 2, 1 => 0 | 2, 7 => 0 | 2, 9 => 0
  | 3, 1 => 2 | 3, 7 => 2 | 3, 9 => 2
  | 4, 7 => 2
  | 5, 1 => 2 | 5, 9 => 2
  | 6, 7 => 3 | 6, 9 => 3
  | 7, 1 => 3 | 7, 7 => 3 | 7, 9 => 3
  | 8, 1 => 3
  | _, _ => 1

/-! Exhaustive checks of the table (the finite sets below are the whole domains). -/

theorem utf8d_cls : ∀ b : Fin 256, utf8dAt b.val = .ok (utf8Cls (UInt8.ofNat b.val)) := by
  decide +kernel

theorem utf8Cls_lt_table : ∀ b : Fin 256, utf8Cls (UInt8.ofNat b.val) < 12 := by decide +kernel

theorem utf8d_tr : ∀ st : Fin 9, ∀ t : Fin 12,
    utf8dAt (256 + st.val * 16 + t.val) = .ok (utf8Tr st.val t.val) := by
  decide +kernel

theorem utf8Tr_step : ∀ st : Fin 9, ∀ b : Fin 256,
    utf8Tr st.val (utf8Cls (UInt8.ofNat b.val)) = utf8Step st.val (UInt8.ofNat b.val) := by
  decide +kernel

theorem decodeUtf8_table (st : Fin 9) (b : Fin 256) :
    decodeUtf8 st.val (UInt8.ofNat b.val) = .ok (utf8Step st.val (UInt8.ofNat b.val)) := by
  have h1 := utf8d_cls b
  have h2 := utf8d_tr st ⟨_, utf8Cls_lt_table b⟩
  have hb : (UInt8.ofNat b.val).toNat = b.val := by
    simp only [UInt8.toNat_ofNat']; have := b.isLt; omega
  rw [decodeUtf8, hb, h1, ← utf8Tr_step st b, Res.bind_ok]
  exact h2

theorem utf8Step_lt_table : ∀ st : Fin 9, ∀ b : Fin 256, utf8Step st.val (UInt8.ofNat b.val) < 9 := by
  decide +kernel

theorem decodeUtf8_eq {st : Nat} (h : st < 9) (b : UInt8) : decodeUtf8 st b = .ok (utf8Step st b) := by
  have := decodeUtf8_table ⟨st, h⟩ ⟨b.toNat, b.toNat_lt⟩
  simpa using this

theorem utf8Step_lt {st : Nat} (h : st < 9) (b : UInt8) : utf8Step st b < 9 := by
  have := utf8Step_lt_table ⟨st, h⟩ ⟨b.toNat, b.toNat_lt⟩
  simpa using this

/-- Pure run of the automaton. -/
def utf8Run (st : Nat) : Str → Nat
  | [] => st
  | b :: s => utf8Run (utf8Step st b) s

theorem utf8Loop_eq (s : Str) : ∀ {st : Nat}, st < 9 → utf8Loop st s = .ok (utf8Run st s) := by
  induction s with
  | nil => intro st _; rfl
  | cons b s ih => intro st h; simp [utf8Loop, utf8Run, decodeUtf8_eq h, ih (utf8Step_lt h b)]

theorem utf8Run_one (s : Str) : utf8Run 1 s = 1 := by
  induction s with
  | nil => rfl
  | cons b s ih => simpa [utf8Run, utf8Step] using ih

/-- Continuation byte. -/
def cont (b : UInt8) : Prop := 0x80 ≤ b ∧ b ≤ 0xBF

/-- Residual language of each state. -/
def Resid (st : Nat) (s : Str) : Prop :=
  match st with
  | 0 => Utf8 s
  | 2 => ∃ b t, s = b :: t ∧ cont b ∧ Utf8 t
  | 3 => ∃ b c t, s = b :: c :: t ∧ cont b ∧ cont c ∧ Utf8 t
  | 4 => ∃ b c t, s = b :: c :: t ∧ (0xA0 ≤ b ∧ b ≤ 0xBF) ∧ cont c ∧ Utf8 t
  | 5 => ∃ b c t, s = b :: c :: t ∧ (0x80 ≤ b ∧ b ≤ 0x9F) ∧ cont c ∧ Utf8 t
  | 6 => ∃ b c d t, s = b :: c :: d :: t ∧ (0x90 ≤ b ∧ b ≤ 0xBF) ∧ cont c ∧ cont d ∧ Utf8 t
  | 7 => ∃ b c d t, s = b :: c :: d :: t ∧ cont b ∧ cont c ∧ cont d ∧ Utf8 t
  | 8 => ∃ b c d t, s = b :: c :: d :: t ∧ (0x80 ≤ b ∧ b ≤ 0x8F) ∧ cont c ∧ cont d ∧ Utf8 t
  | _ => False

theorem resid_zero_cons (a : UInt8) (s : Str) : Utf8 (a :: s) ↔ Resid (utf8Step 0 a) s := by
  constructor
  · intro h
    cases h with
    | one h1 h2 => simp [utf8Step, h1, Resid, h2]
    | two h1 h2 h3 h4 h5 =>
      have n1 : ¬ a ≤ 0x7F := by simp only [UInt8.le_iff_toNat_le] at *; simp at *; omega
      have hs : utf8Step 0 a = 2 := by simp [utf8Step, n1, h1, h2]
      rw [hs]; exact ⟨_, _, rfl, ⟨h3, h4⟩, h5⟩
    | e0 h1 h2 h3 h4 h5 => exact ⟨_, _, _, rfl, ⟨h1, h2⟩, ⟨h3, h4⟩, h5⟩
    | e1ec h1 h2 h3 h4 h5 h6 h7 =>
      have n1 : ¬ a ≤ 0x7F := by simp only [UInt8.le_iff_toNat_le] at *; simp at *; omega
      have n2 : ¬ a ≤ 0xDF := by simp only [UInt8.le_iff_toNat_le] at *; simp at *; omega
      have n3 : a ≠ 0xE0 := by rintro rfl; exact absurd h1 (by decide)
      have n4 : a ≠ 0xED := by rintro rfl; exact absurd h2 (by decide)
      have n5 : a ≤ 0xEF := by simp only [UInt8.le_iff_toNat_le] at *; simp at *; omega
      have hs : utf8Step 0 a = 3 := by simp [utf8Step, n1, n2, n3, n4, n5, h1]
      rw [hs]; exact ⟨_, _, _, rfl, ⟨h3, h4⟩, ⟨h5, h6⟩, h7⟩
    | ed h1 h2 h3 h4 h5 => exact ⟨_, _, _, rfl, ⟨h1, h2⟩, ⟨h3, h4⟩, h5⟩
    | eeef h1 h2 h3 h4 h5 h6 h7 =>
      have n1 : ¬ a ≤ 0x7F := by simp only [UInt8.le_iff_toNat_le] at *; simp at *; omega
      have n2 : ¬ a ≤ 0xDF := by simp only [UInt8.le_iff_toNat_le] at *; simp at *; omega
      have n3 : a ≠ 0xE0 := by rintro rfl; exact absurd h1 (by decide)
      have n4 : a ≠ 0xED := by rintro rfl; exact absurd h1 (by decide)
      have n5 : 0xE1 ≤ a := by simp only [UInt8.le_iff_toNat_le] at *; simp at *; omega
      have hs : utf8Step 0 a = 3 := by simp [utf8Step, n1, n2, n3, n4, n5, h2]
      rw [hs]; exact ⟨_, _, _, rfl, ⟨h3, h4⟩, ⟨h5, h6⟩, h7⟩
    | f0 h1 h2 h3 h4 h5 h6 h7 => exact ⟨_, _, _, _, rfl, ⟨h1, h2⟩, ⟨h3, h4⟩, ⟨h5, h6⟩, h7⟩
    | f1f3 h1 h2 h3 h4 h5 h6 h7 h8 h9 =>
      have n1 : ¬ a ≤ 0x7F := by simp only [UInt8.le_iff_toNat_le] at *; simp at *; omega
      have n2 : ¬ a ≤ 0xDF := by simp only [UInt8.le_iff_toNat_le] at *; simp at *; omega
      have n3 : a ≠ 0xE0 := by rintro rfl; exact absurd h1 (by decide)
      have n4 : a ≠ 0xED := by rintro rfl; exact absurd h1 (by decide)
      have n5 : ¬ a ≤ 0xEF := by simp only [UInt8.le_iff_toNat_le] at *; simp at *; omega
      have n6 : a ≠ 0xF0 := by rintro rfl; exact absurd h1 (by decide)
      have hs : utf8Step 0 a = 7 := by simp [utf8Step, n1, n2, n3, n4, n5, n6, h1, h2]
      rw [hs]; exact ⟨_, _, _, _, rfl, ⟨h3, h4⟩, ⟨h5, h6⟩, ⟨h7, h8⟩, h9⟩
    | f4 h1 h2 h3 h4 h5 h6 h7 => exact ⟨_, _, _, _, rfl, ⟨h1, h2⟩, ⟨h3, h4⟩, ⟨h5, h6⟩, h7⟩
  · intro h
    simp only [utf8Step] at h
    split at h
    · next h1 => exact .one h1 h
    split at h
    · next h1 =>
      simp at h1
      obtain ⟨b, t, rfl, ⟨hb1, hb2⟩, ht⟩ := h
      exact .two h1.1 h1.2 hb1 hb2 ht
    split at h
    · next h1 =>
      simp at h1; subst h1
      obtain ⟨b, c, t, rfl, ⟨hb1, hb2⟩, ⟨hc1, hc2⟩, ht⟩ := h
      exact .e0 hb1 hb2 hc1 hc2 ht
    split at h
    · next h1 =>
      simp at h1; subst h1
      obtain ⟨b, c, t, rfl, ⟨hb1, hb2⟩, ⟨hc1, hc2⟩, ht⟩ := h
      exact .ed hb1 hb2 hc1 hc2 ht
    split at h
    · next h0 h1 =>
      simp at h1 h0
      obtain ⟨b, c, t, rfl, ⟨hb1, hb2⟩, ⟨hc1, hc2⟩, ht⟩ := h
      by_cases hc : a ≤ 0xEC
      · exact .e1ec h1.1 hc hb1 hb2 hc1 hc2 ht
      · refine .eeef ?_ h1.2 hb1 hb2 hc1 hc2 ht
        have h0' : a.toNat ≠ 0xED := fun h => h0 (UInt8.toNat_inj.1 h)
        simp only [UInt8.le_iff_toNat_le] at *; simp at *; omega
    split at h
    · next h1 =>
      simp at h1; subst h1
      obtain ⟨b, c, d, t, rfl, ⟨hb1, hb2⟩, ⟨hc1, hc2⟩, ⟨hd1, hd2⟩, ht⟩ := h
      exact .f0 hb1 hb2 hc1 hc2 hd1 hd2 ht
    split at h
    · next h1 =>
      simp at h1
      obtain ⟨b, c, d, t, rfl, ⟨hb1, hb2⟩, ⟨hc1, hc2⟩, ⟨hd1, hd2⟩, ht⟩ := h
      exact .f1f3 h1.1 h1.2 hb1 hb2 hc1 hc2 hd1 hd2 ht
    split at h
    · next h1 =>
      simp at h1; subst h1
      obtain ⟨b, c, d, t, rfl, ⟨hb1, hb2⟩, ⟨hc1, hc2⟩, ⟨hd1, hd2⟩, ht⟩ := h
      exact .f4 hb1 hb2 hc1 hc2 hd1 hd2 ht
    · exact h.elim

theorem resid_cons {st : Nat} (hst : st < 9) (a : UInt8) (s : Str) :
    Resid st (a :: s) ↔ Resid (utf8Step st a) s := by
  match st, hst with
  | 0, _ => exact resid_zero_cons a s
  | 1, _ => simp [Resid, utf8Step]
  | 2, _ =>
    by_cases h : 0x80 ≤ a ∧ a ≤ 0xBF
    · have hs : utf8Step 2 a = 0 := by simp [utf8Step, h]
      rw [hs]
      exact ⟨fun ⟨b, t, e, _, ht⟩ => by cases e; exact ht, fun hu => ⟨_, _, rfl, h, hu⟩⟩
    · have hs : utf8Step 2 a = 1 := by simp only [utf8Step]; rw [if_neg (by simpa using h)]
      rw [hs]
      exact ⟨fun ⟨b, t, e, hb, _⟩ => by cases e; exact h hb, False.elim⟩
  | 3, _ =>
    by_cases h : 0x80 ≤ a ∧ a ≤ 0xBF
    · have hs : utf8Step 3 a = 2 := by simp [utf8Step, h]
      rw [hs]
      exact ⟨fun ⟨b, c, t, e, _, hc, ht⟩ => by cases e; exact ⟨_, _, rfl, hc, ht⟩,
        fun ⟨c, t, e, hc, ht⟩ => ⟨_, _, _, by rw [e], h, hc, ht⟩⟩
    · have hs : utf8Step 3 a = 1 := by simp only [utf8Step]; rw [if_neg (by simpa using h)]
      rw [hs]
      exact ⟨fun ⟨b, c, t, e, hb, _⟩ => by cases e; exact h hb, False.elim⟩
  | 4, _ =>
    by_cases h : 0xA0 ≤ a ∧ a ≤ 0xBF
    · have hs : utf8Step 4 a = 2 := by simp [utf8Step, h]
      rw [hs]
      exact ⟨fun ⟨b, c, t, e, _, hc, ht⟩ => by cases e; exact ⟨_, _, rfl, hc, ht⟩,
        fun ⟨c, t, e, hc, ht⟩ => ⟨_, _, _, by rw [e], h, hc, ht⟩⟩
    · have hs : utf8Step 4 a = 1 := by simp only [utf8Step]; rw [if_neg (by simpa using h)]
      rw [hs]
      exact ⟨fun ⟨b, c, t, e, hb, _⟩ => by cases e; exact h hb, False.elim⟩
  | 5, _ =>
    by_cases h : 0x80 ≤ a ∧ a ≤ 0x9F
    · have hs : utf8Step 5 a = 2 := by simp [utf8Step, h]
      rw [hs]
      exact ⟨fun ⟨b, c, t, e, _, hc, ht⟩ => by cases e; exact ⟨_, _, rfl, hc, ht⟩,
        fun ⟨c, t, e, hc, ht⟩ => ⟨_, _, _, by rw [e], h, hc, ht⟩⟩
    · have hs : utf8Step 5 a = 1 := by simp only [utf8Step]; rw [if_neg (by simpa using h)]
      rw [hs]
      exact ⟨fun ⟨b, c, t, e, hb, _⟩ => by cases e; exact h hb, False.elim⟩
  | 6, _ =>
    by_cases h : 0x90 ≤ a ∧ a ≤ 0xBF
    · have hs : utf8Step 6 a = 3 := by simp [utf8Step, h]
      rw [hs]
      exact ⟨fun ⟨b, c, d, t, e, _, hc, hd, ht⟩ => by cases e; exact ⟨_, _, _, rfl, hc, hd, ht⟩,
        fun ⟨c, d, t, e, hc, hd, ht⟩ => ⟨_, _, _, _, by rw [e], h, hc, hd, ht⟩⟩
    · have hs : utf8Step 6 a = 1 := by simp only [utf8Step]; rw [if_neg (by simpa using h)]
      rw [hs]
      exact ⟨fun ⟨b, c, d, t, e, hb, _⟩ => by cases e; exact h hb, False.elim⟩
  | 7, _ =>
    by_cases h : 0x80 ≤ a ∧ a ≤ 0xBF
    · have hs : utf8Step 7 a = 3 := by simp [utf8Step, h]
      rw [hs]
      exact ⟨fun ⟨b, c, d, t, e, _, hc, hd, ht⟩ => by cases e; exact ⟨_, _, _, rfl, hc, hd, ht⟩,
        fun ⟨c, d, t, e, hc, hd, ht⟩ => ⟨_, _, _, _, by rw [e], h, hc, hd, ht⟩⟩
    · have hs : utf8Step 7 a = 1 := by simp only [utf8Step]; rw [if_neg (by simpa using h)]
      rw [hs]
      exact ⟨fun ⟨b, c, d, t, e, hb, _⟩ => by cases e; exact h hb, False.elim⟩
  | 8, _ =>
    by_cases h : 0x80 ≤ a ∧ a ≤ 0x8F
    · have hs : utf8Step 8 a = 3 := by simp [utf8Step, h]
      rw [hs]
      exact ⟨fun ⟨b, c, d, t, e, _, hc, hd, ht⟩ => by cases e; exact ⟨_, _, _, rfl, hc, hd, ht⟩,
        fun ⟨c, d, t, e, hc, hd, ht⟩ => ⟨_, _, _, _, by rw [e], h, hc, hd, ht⟩⟩
    · have hs : utf8Step 8 a = 1 := by simp only [utf8Step]; rw [if_neg (by simpa using h)]
      rw [hs]
      exact ⟨fun ⟨b, c, d, t, e, hb, _⟩ => by cases e; exact h hb, False.elim⟩

theorem resid_nil {st : Nat} (hst : st < 9) : Resid st [] ↔ st = 0 := by
  match st, hst with
  | 0, _ => simp [Resid, Utf8.nil]
  | 1, _ | 2, _ | 3, _ | 4, _ | 5, _ | 6, _ | 7, _ | 8, _ => simp [Resid]

theorem utf8Run_iff (s : Str) : ∀ {st : Nat}, st < 9 → (utf8Run st s = 0 ↔ Resid st s) := by
  induction s with
  | nil => intro st h; rw [resid_nil h]; rfl
  | cons a s ih => intro st h; rw [resid_cons h]; exact ih (utf8Step_lt h a)

theorem isUtf8Valid_eq (s : Str) : isUtf8Valid s = .ok (utf8Run 0 s == 0) := by
  simp [isUtf8Valid, utf8Loop_eq s (by omega : 0 < 9)]

/-- Boolean form used elsewhere. -/
def utf8b (s : Str) : Bool := utf8Run 0 s == 0

theorem utf8b_iff (s : Str) : utf8b s = true ↔ Utf8 s := by
  have := utf8Run_iff s (by omega : 0 < 9)
  simpa [utf8b, Resid] using this

/-- ASCII strings are well-formed. -/
theorem utf8_ascii {s : Str} (h : ∀ b ∈ s, b ≤ 0x7F) : Utf8 s := by
  induction s with
  | nil => exact .nil
  | cons a s ih =>
    exact .one (h a (by simp)) (ih fun b hb => h b (by simp [hb]))

theorem utf8_append {s t : Str} (hs : Utf8 s) (ht : Utf8 t) : Utf8 (s ++ t) := by
  induction hs with
  | nil => exact ht
  | one h _ ih => exact .one h ih
  | two h1 h2 h3 h4 _ ih => exact .two h1 h2 h3 h4 ih
  | e0 h1 h2 h3 h4 _ ih => exact .e0 h1 h2 h3 h4 ih
  | e1ec h1 h2 h3 h4 h5 h6 _ ih => exact .e1ec h1 h2 h3 h4 h5 h6 ih
  | ed h1 h2 h3 h4 _ ih => exact .ed h1 h2 h3 h4 ih
  | eeef h1 h2 h3 h4 h5 h6 _ ih => exact .eeef h1 h2 h3 h4 h5 h6 ih
  | f0 h1 h2 h3 h4 h5 h6 _ ih => exact .f0 h1 h2 h3 h4 h5 h6 ih
  | f1f3 h1 h2 h3 h4 h5 h6 h7 h8 _ ih => exact .f1f3 h1 h2 h3 h4 h5 h6 h7 h8 ih
  | f4 h1 h2 h3 h4 h5 h6 _ ih => exact .f4 h1 h2 h3 h4 h5 h6 ih

end Xeus
