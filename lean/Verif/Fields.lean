import Verif.Double

/-!
# Reading the fields of a request

Specification of "field `k` of a JSON object, with default `d`": `none` means that the field is present with
the wrong type, or is a number that does not fit.
-/

namespace Xeus.Spec

open Xeus

/-- A text field. -/
def strField (c : Json) (k : String) (d : String) : Option Str :=
  match c.find? (lit k) with
  | none => some (lit d)
  | some (.str s) => some s
  | some _ => none

/-- A boolean field. -/
def boolField (c : Json) (k : String) (d : Bool) : Option Bool :=
  match c.find? (lit k) with
  | none => some d
  | some (.bool b) => some b
  | some _ => none

/-- `n` is the integral part of the double `b`, which is `±scaled b / 2 ^ 1075`. -/
def IsTrunc (b : UInt64) (n : Int) : Prop :=
  Double.isFinite b = true ∧ n.natAbs * 2 ^ 1075 ≤ Double.scaled b ∧ Double.scaled b < (n.natAbs + 1) * 2 ^ 1075 ∧
    (0 < n → Double.neg b = false) ∧ (n < 0 → Double.neg b = true)

/-- The integral part of a double, if it is an `int`. -/
def doubleInt (b : UInt64) : Option Int := (Double.trunc b).filter fun n => decide (InInt n)

/-- An `int` field: integers are reduced to 32 bits, booleans are accepted, doubles are rounded towards zero. -/
def intField (c : Json) (k : String) (d : Int) : Option Int :=
  match c.find? (lit k) with
  | none => some d
  | some (.int i) => some (wrap32 i)
  | some (.bool b) => some (if b then 1 else 0)
  | some (.float b) => doubleInt b
  | some _ => none

/-- The field is a double whose integral part is not an `int`: its conversion is undefined. -/
def Wild (c : Json) (k : String) : Prop := ∃ b, c.find? (lit k) = some (.float b) ∧ doubleInt b = none

instance (c : Json) (k : String) : Decidable (Wild c k) :=
  match h : c.find? (lit k) with
  | some (.float b) =>
    if hb : doubleInt b = none then isTrue ⟨b, h, hb⟩
    else isFalse (by rintro ⟨b', h', hb'⟩; rw [h] at h'; cases h'; exact hb hb')
  | none | some .null | some (.bool _) | some (.int _) | some (.str _) | some (.arr _) | some (.obj _) =>
    isFalse (by rintro ⟨b', h', hb'⟩; rw [h] at h'; cases h')

/-- A field of any JSON type. -/
def jsonField (c : Json) (k : String) (d : Json) : Json := (c.find? (lit k)).getD d

end Xeus.Spec

namespace Xeus

open Spec

theorem strField_value {c : Json} {k d : String} {s : Str} (ho : c.isObj = true)
    (h : strField c k d = some s) : c.value (lit k) Json.getStr (lit d) = .ok s := by
  cases c <;> simp [Json.isObj] at ho
  rename_i kvs
  simp only [strField, Json.find?] at h
  simp only [Json.value]
  cases hl : Json.lookup (lit k) kvs with
  | none => simp [hl] at h; simp [h]
  | some v => cases v <;> simp [hl] at h <;> simp [Json.getStr, h]

theorem strField_none {c : Json} {k d : String} (ho : c.isObj = true)
    (h : strField c k d = none) : c.value (lit k) Json.getStr (lit d) = .exc .typeError := by
  cases c <;> simp [Json.isObj] at ho
  rename_i kvs
  simp only [strField, Json.find?] at h
  simp only [Json.value]
  cases hl : Json.lookup (lit k) kvs with
  | none => simp [hl] at h
  | some v => cases v <;> simp [hl] at h <;> simp [Json.getStr]

theorem boolField_value {c : Json} {k : String} {d b : Bool} (ho : c.isObj = true)
    (h : boolField c k d = some b) : c.value (lit k) Json.getBool d = .ok b := by
  cases c <;> simp [Json.isObj] at ho
  rename_i kvs
  simp only [boolField, Json.find?] at h
  simp only [Json.value]
  cases hl : Json.lookup (lit k) kvs with
  | none => simp [hl] at h; simp [h]
  | some v => cases v <;> simp [hl] at h <;> simp [Json.getBool, h]

theorem boolField_none {c : Json} {k : String} {d : Bool} (ho : c.isObj = true)
    (h : boolField c k d = none) : c.value (lit k) Json.getBool d = .exc .typeError := by
  cases c <;> simp [Json.isObj] at ho
  rename_i kvs
  simp only [boolField, Json.find?] at h
  simp only [Json.value]
  cases hl : Json.lookup (lit k) kvs with
  | none => simp [hl] at h
  | some v => cases v <;> simp [hl] at h <;> simp [Json.getBool]

theorem div_iff {s d q : Nat} (hd : 0 < d) : s / d = q ↔ q * d ≤ s ∧ s < (q + 1) * d := by
  constructor
  · rintro rfl
    refine ⟨Nat.div_mul_le_self s d, ?_⟩
    have h1 := Nat.div_add_mod s d
    have h2 := Nat.mod_lt s hd
    rw [Nat.add_mul, Nat.mul_comm (s / d) d]
    omega
  · rintro ⟨h1, h2⟩
    exact Nat.div_eq_of_lt_le h1 h2

theorem trunc_iff {s d : Nat} (hd : 0 < d) (neg : Bool) (n : Int) :
    (if neg then -((s / d : Nat) : Int) else ((s / d : Nat) : Int)) = n ↔
    n.natAbs * d ≤ s ∧ s < (n.natAbs + 1) * d ∧ (0 < n → neg = false) ∧ (n < 0 → neg = true) := by
  rw [← and_assoc, ← div_iff hd]
  generalize s / d = q
  cases neg <;> simp <;> omega

theorem doubleInt_iff (b : UInt64) (n : Int) : doubleInt b = some n ↔ IsTrunc b n ∧ InInt n := by
  unfold doubleInt IsTrunc Double.trunc
  have h := trunc_iff (s := Double.scaled b) (d := 2 ^ 1075) (Nat.two_pow_pos 1075) (Double.neg b) n
  generalize 2 ^ 1075 = d at *
  cases hf : Double.isFinite b with
  | false => simp
  | true =>
    rw [← h]
    simp only [if_true, Option.filter_eq_some_iff, Option.some.injEq, decide_eq_true_eq, true_and]

theorem getInt_float {b : UInt64} : (Json.float b).getInt =
    match doubleInt b with | some n => .ok n | none => .ub "conversion of a double that does not fit" := by
  simp only [Json.getInt, doubleInt]
  cases Double.trunc b with
  | none => rfl
  | some n => by_cases h : InInt n <;> simp [h, Option.filter]

theorem intField_value {c : Json} {k : String} {d n : Int} (ho : c.isObj = true)
    (h : intField c k d = some n) : c.value (lit k) Json.getInt d = .ok n := by
  cases c <;> simp [Json.isObj] at ho
  rename_i kvs
  simp only [intField, Json.find?] at h
  simp only [Json.value]
  cases hl : Json.lookup (lit k) kvs with
  | none => simp [hl] at h; simp [h]
  | some v =>
    rw [hl] at h
    cases v with
    | float b => simp only [getInt_float, h]
    | _ => simp at h <;> simp [Json.getInt, h]

theorem intField_wild {c : Json} {k : String} {d : Int} (ho : c.isObj = true) (h : Wild c k) :
    c.value (lit k) Json.getInt d = .ub "conversion of a double that does not fit" ∧ intField c k d = none := by
  cases c <;> simp [Json.isObj] at ho
  rename_i kvs
  obtain ⟨b, hl, hb⟩ := h
  simp only [Json.find?] at hl
  simp only [Json.value, intField, Json.find?, hl, getInt_float, hb, and_self]

theorem intField_none {c : Json} {k : String} {d : Int} (ho : c.isObj = true) (hw : ¬ Wild c k)
    (h : intField c k d = none) : c.value (lit k) Json.getInt d = .exc .typeError := by
  cases c <;> simp [Json.isObj] at ho
  rename_i kvs
  simp only [intField, Json.find?] at h
  simp only [Wild, Json.find?] at hw
  simp only [Json.value]
  cases hl : Json.lookup (lit k) kvs with
  | none => simp [hl] at h
  | some v =>
    rw [hl] at h hw
    cases v with
    | float b => exact absurd ⟨b, rfl, h⟩ hw
    | _ => simp at h <;> simp [Json.getInt]

theorem doubleInt_range {b : UInt64} {n : Int} (h : doubleInt b = some n) : InInt n := by
  unfold doubleInt at h
  simp only [Option.filter_eq_some_iff, decide_eq_true_eq] at h
  exact h.2

theorem intField_range {c : Json} {k : String} {d n : Int} (hd : InInt d)
    (h : intField c k d = some n) : InInt n := by
  unfold intField at h
  split at h
  · simp at h; exact h ▸ hd
  · simp at h; exact h ▸ wrap32_range _
  · rename_i b _; simp at h; subst h; cases b <;> decide
  · exact doubleInt_range h
  · simp at h

theorem jsonField_value {c : Json} {k : String} {d : Json} (ho : c.isObj = true) :
    c.value (lit k) Json.getJson d = .ok (jsonField c k d) := by
  cases c <;> simp [Json.isObj] at ho
  rename_i kvs
  simp only [jsonField, Json.find?, Json.value]
  cases Json.lookup (lit k) kvs <;> rfl

/-- On non-objects every field access throws. -/
theorem value_nonobj {α : Type} {c : Json} {k : Str} {conv : Json → Res α} {d : α} (ho : c.isObj = false) :
    c.value k conv d = .exc .typeError := by
  cases c <;> simp [Json.isObj] at ho <;> rfl

/-- A text field access succeeds exactly on objects whose field is well typed. -/
theorem value_str_ok {c : Json} {k d : String} {s : Str} :
    c.value (lit k) Json.getStr (lit d) = .ok s ↔ c.isObj = true ∧ strField c k d = some s := by
  constructor
  · intro h
    cases ho : c.isObj with
    | false => rw [value_nonobj ho] at h; simp at h
    | true =>
      refine ⟨rfl, ?_⟩
      cases hf : strField c k d with
      | none => rw [strField_none ho hf] at h; simp at h
      | some s' => rw [strField_value ho hf] at h; simp at h; rw [h]
  · rintro ⟨ho, hf⟩; exact strField_value ho hf

theorem value_bool_ok {c : Json} {k : String} {d b : Bool} :
    c.value (lit k) Json.getBool d = .ok b ↔ c.isObj = true ∧ boolField c k d = some b := by
  constructor
  · intro h
    cases ho : c.isObj with
    | false => rw [value_nonobj ho] at h; simp at h
    | true =>
      refine ⟨rfl, ?_⟩
      cases hf : boolField c k d with
      | none => rw [boolField_none ho hf] at h; simp at h
      | some s' => rw [boolField_value ho hf] at h; simp at h; rw [h]
  · rintro ⟨ho, hf⟩; exact boolField_value ho hf

theorem value_int_ok {c : Json} {k : String} {d n : Int} :
    c.value (lit k) Json.getInt d = .ok n ↔ c.isObj = true ∧ intField c k d = some n := by
  constructor
  · intro h
    cases ho : c.isObj with
    | false => rw [value_nonobj ho] at h; simp at h
    | true =>
      refine ⟨rfl, ?_⟩
      cases hf : intField c k d with
      | none =>
        by_cases hw : Wild c k
        · rw [(intField_wild ho hw).1] at h; simp at h
        · rw [intField_none ho hw hf] at h; simp at h
      | some s' => rw [intField_value ho hf] at h; simp at h; rw [h]
  · rintro ⟨ho, hf⟩; exact intField_value ho hf

/-- Field accesses either succeed or throw a `type_error`. -/
theorem value_str_cases (c : Json) (k d : Str) :
    (∃ s, c.value k Json.getStr d = .ok s) ∨ c.value k Json.getStr d = .exc .typeError := by
  cases c with
  | obj kvs =>
    simp only [Json.value]
    cases Json.lookup k kvs with
    | none => exact .inl ⟨_, rfl⟩
    | some v => cases v <;> simp [Json.getStr]
  | _ => exact .inr rfl

theorem value_bool_cases (c : Json) (k : Str) (d : Bool) :
    (∃ s, c.value k Json.getBool d = .ok s) ∨ c.value k Json.getBool d = .exc .typeError := by
  cases c with
  | obj kvs =>
    simp only [Json.value]
    cases Json.lookup k kvs with
    | none => exact .inl ⟨_, rfl⟩
    | some v => cases v <;> simp [Json.getBool]
  | _ => exact .inr rfl

theorem value_int_cases (c : Json) (k : String) (d : Int) :
    (∃ s, c.value (lit k) Json.getInt d = .ok s) ∨ c.value (lit k) Json.getInt d = .exc .typeError ∨
      c.isObj = true ∧ Wild c k ∧ c.value (lit k) Json.getInt d = .ub "conversion of a double that does not fit" := by
  cases ho : c.isObj with
  | false => exact .inr (.inl (value_nonobj ho))
  | true =>
    cases hf : intField c k d with
    | some n => exact .inl ⟨n, intField_value ho hf⟩
    | none =>
      by_cases hw : Wild c k
      · exact .inr (.inr ⟨rfl, hw, (intField_wild ho hw).1⟩)
      · exact .inr (.inl (intField_none ho hw hf))

/-- An `int` conversion throws nothing but `type_error`. -/
theorem getInt_exc {v : Json} {e : Exc} (h : v.getInt = .exc e) : e = .typeError := by
  cases v with
  | float b =>
    rw [getInt_float] at h
    split at h <;> cases h
  | bool b => simp [Json.getInt] at h
  | int i => simp [Json.getInt] at h
  | _ => simp [Json.getInt] at h; exact h.symm

theorem value_json_cases (c : Json) (k : Str) (d : Json) :
    (∃ s, c.value k Json.getJson d = .ok s) ∨ c.value k Json.getJson d = .exc .typeError := by
  cases c with
  | obj kvs =>
    simp only [Json.value]
    cases Json.lookup k kvs with
    | none => exact .inl ⟨_, rfl⟩
    | some v => exact .inl ⟨_, rfl⟩
  | _ => exact .inr rfl

theorem Res.bind_eq_ub {α β : Type} {x : Res α} {f : α → Res β} {w : String} :
    (x >>= f) = .ub w ↔ x = .ub w ∨ ∃ a, x = .ok a ∧ f a = .ub w := by
  cases x <;> simp

end Xeus
