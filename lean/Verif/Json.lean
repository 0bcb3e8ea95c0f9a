import Verif.Base

/-!
# JSON values (`nlohmann::json`)

Values are null, booleans, integers, doubles, strings (byte strings), arrays and objects.  Objects are
association lists; the canonical form (`Json.canon`) is sorted by key without duplicates, as in
`nlohmann::json`, whose `object_t` is `std::map<std::string, json>`.  A double is given by its 64 bits (IEEE 754).

External library, modelled from its documented behaviour (nlohmann/json 3.x); used everywhere in /repo
(e.g. src/xkernel_core.cpp:253-262 `content.value(...)`, src/xcomm.cpp:62-75 `content["comm_id"]`,
src/xmessage.cpp:255-262 `header["msg_id"] = …`).
-/

namespace Xeus

namespace Double

/-- The fields of a double: sign, exponent, fraction. -/
def neg (b : UInt64) : Bool := decide (9223372036854775808 ≤ b.toNat)
def expo (b : UInt64) : Nat := b.toNat / 4503599627370496 % 2048
def frac (b : UInt64) : Nat := b.toNat % 4503599627370496

/-- Neither infinite nor NaN. -/
def isFinite (b : UInt64) : Bool := expo b != 2047

/-- A finite double is `±scaled / 2 ^ 1075`. -/
def scaled (b : UInt64) : Nat := if expo b = 0 then frac b * 2 else (frac b + 4503599627370496) * 2 ^ expo b

/-- The integral part, if there is one. -/
def trunc (b : UInt64) : Option Int :=
  if isFinite b then some (if neg b then -(scaled b / 2 ^ 1075 : Nat) else (scaled b / 2 ^ 1075 : Nat)) else none

end Double

inductive Json where
  | null
  | bool (b : Bool)
  | int (i : Int)
  | float (b : UInt64)
  | str (s : Str)
  | arr (xs : List Json)
  | obj (kvs : List (Str × Json))
  deriving Repr

instance : Inhabited Json := ⟨.null⟩

mutual
/-- Decidable equality of JSON values (structural). -/
def Json.decEq : (a b : Json) → Decidable (a = b)
  | .null, .null => isTrue rfl
  | .bool x, .bool y => if h : x = y then isTrue (by rw [h]) else isFalse (by simp [h])
  | .int x, .int y => if h : x = y then isTrue (by rw [h]) else isFalse (by simp [h])
  | .float x, .float y => if h : x = y then isTrue (by rw [h]) else isFalse (by simp [h])
  | .str x, .str y => if h : x = y then isTrue (by rw [h]) else isFalse (by simp [h])
  | .arr x, .arr y => match Json.decEqL x y with
    | isTrue h => isTrue (by rw [h])
    | isFalse h => isFalse (by simp [h])
  | .obj x, .obj y => match Json.decEqO x y with
    | isTrue h => isTrue (by rw [h])
    | isFalse h => isFalse (by simp [h])
  | .null, .bool _ | .null, .int _ | .null, .float _ | .null, .str _ | .null, .arr _ | .null, .obj _
  | .bool _, .null | .bool _, .int _ | .bool _, .float _ | .bool _, .str _ | .bool _, .arr _ | .bool _, .obj _
  | .int _, .null | .int _, .bool _ | .int _, .float _ | .int _, .str _ | .int _, .arr _ | .int _, .obj _
  | .float _, .null | .float _, .bool _ | .float _, .int _ | .float _, .str _ | .float _, .arr _ | .float _, .obj _
  | .str _, .null | .str _, .bool _ | .str _, .int _ | .str _, .float _ | .str _, .arr _ | .str _, .obj _
  | .arr _, .null | .arr _, .bool _ | .arr _, .int _ | .arr _, .float _ | .arr _, .str _ | .arr _, .obj _
  | .obj _, .null | .obj _, .bool _ | .obj _, .int _ | .obj _, .float _ | .obj _, .str _ | .obj _, .arr _ =>
    isFalse (by simp)
def Json.decEqL : (a b : List Json) → Decidable (a = b)
  | [], [] => isTrue rfl
  | x :: xs, y :: ys => match Json.decEq x y, Json.decEqL xs ys with
    | isTrue h, isTrue h' => isTrue (by rw [h, h'])
    | isFalse h, _ => isFalse (by simp [h])
    | _, isFalse h => isFalse (by simp [h])
  | [], _ :: _ => isFalse (by simp)
  | _ :: _, [] => isFalse (by simp)
def Json.decEqO : (a b : List (Str × Json)) → Decidable (a = b)
  | [], [] => isTrue rfl
  | (k, x) :: xs, (k', y) :: ys =>
    if hk : k = k' then
      match Json.decEq x y, Json.decEqO xs ys with
      | isTrue h, isTrue h' => isTrue (by rw [hk, h, h'])
      | isFalse h, _ => isFalse (by simp [h])
      | _, isFalse h => isFalse (by simp [h])
    else isFalse (by simp [hk])
  | [], _ :: _ => isFalse (by simp)
  | _ :: _, [] => isFalse (by simp)
end

instance : DecidableEq Json := Json.decEq

namespace Json

/-- `json::is_null`, `json::is_object`. -/
def isNull : Json → Bool
  | null => true
  | _ => false

def isObj : Json → Bool
  | obj _ => true
  | _ => false

/-- First entry with the given key. -/
def lookup (k : Str) : List (Str × Json) → Option Json
  | [] => none
  | (k', v) :: r => if k' = k then some v else lookup k r

/-- Member of an object (`none` for non-objects and absent keys). -/
def find? (j : Json) (k : Str) : Option Json :=
  match j with
  | obj kvs => lookup k kvs
  | _ => none

/-- Key-sorted insertion/replacement (`std::map::operator[]` followed by assignment). -/
def insertKV (k : Str) (v : Json) : List (Str × Json) → List (Str × Json)
  | [] => [(k, v)]
  | (k', v') :: r =>
    if k = k' then (k, v) :: r
    else if strLt k k' then (k, v) :: (k', v') :: r
    else (k', v') :: insertKV k v r

/-- Non-const `j[k] = v`: null becomes an object, non-objects throw `type_error.305`. -/
def set (j : Json) (k : Str) (v : Json) : Res Json :=
  match j with
  | null => .ok (obj [(k, v)])
  | obj kvs => .ok (obj (insertKV k v kvs))
  | _ => .exc .typeError

/-- Total version of `set` for values known to be null or objects (freshly built by the code). -/
def put (j : Json) (k : Str) (v : Json) : Json :=
  match j with
  | obj kvs => obj (insertKV k v kvs)
  | _ => obj [(k, v)]

/-- `get<std::string>()` and friends: `type_error.302` on the wrong type. -/
def getStr : Json → Res Str
  | str s => .ok s
  | _ => .exc .typeError

def getBool : Json → Res Bool
  | bool b => .ok b
  | _ => .exc .typeError

/-- `get<int>()`: accepts integers and booleans, converting with wrap-around, and doubles, whose conversion is undefined
behaviour if the integral part does not fit. -/
def getInt : Json → Res Int
  | int i => .ok (wrap32 i)
  | bool b => .ok (if b then 1 else 0)
  | float b => match Double.trunc b with
    | some n => if InInt n then .ok n else .ub "conversion of a double that does not fit"
    | none => .ub "conversion of a double that does not fit"
  | _ => .exc .typeError

def getJson (j : Json) : Res Json := .ok j

/-- `j.value(k, default)`: `type_error.306` on non-objects, default when the key is absent, otherwise
the conversion (which may throw). -/
def value {α : Type} (j : Json) (k : Str) (conv : Json → Res α) (d : α) : Res α :=
  match j with
  | obj kvs => match lookup k kvs with
    | some v => conv v
    | none => .ok d
  | _ => .exc .typeError

/-- `operator[]` on a `const json&`: missing key is an assertion failure / UB, non-objects throw. -/
def cidx (j : Json) (k : Str) : Res Json :=
  match j with
  | obj kvs => match lookup k kvs with
    | some v => .ok v
    | none => .ub "const json[] on a missing key"
  | _ => .exc .typeError

/-- Non-const `j[k]` read: a missing key yields null (and inserts it, an effect that is irrelevant
where this is used); null is turned into an object; other non-objects throw. -/
def idx (j : Json) (k : Str) : Res Json :=
  match j with
  | obj kvs => match lookup k kvs with
    | some v => .ok v
    | none => .ok null
  | null => .ok null
  | _ => .exc .typeError

mutual
/-- Every string (including keys) satisfies `p`. -/
def allStr (p : Str → Bool) : Json → Bool
  | null | bool _ | int _ | float _ => true
  | str s => p s
  | arr xs => allStrL p xs
  | obj kvs => allStrO p kvs
def allStrL (p : Str → Bool) : List Json → Bool
  | [] => true
  | x :: xs => x.allStr p && allStrL p xs
def allStrO (p : Str → Bool) : List (Str × Json) → Bool
  | [] => true
  | (k, v) :: xs => p k && v.allStr p && allStrO p xs
end

/-- Keys strictly increasing. -/
def sortedKeys : List (Str × Json) → Bool
  | [] => true
  | [_] => true
  | (k, _) :: (k', v') :: r => strLt k k' && sortedKeys ((k', v') :: r)

/-- Integers representable by `nlohmann::json` (`int64_t` or `uint64_t`). -/
def inRange (i : Int) : Bool := -9223372036854775808 ≤ i && i < 18446744073709551616

mutual
/-- Values that a `nlohmann::json` object can actually hold and JSON can express: objects key-sorted without duplicates,
integers within 64 bits, finite doubles. -/
def canon : Json → Bool
  | null | bool _ | str _ => true
  | int i => inRange i
  | float b => Double.isFinite b
  | arr xs => canonL xs
  | obj kvs => sortedKeys kvs && canonO kvs
def canonL : List Json → Bool
  | [] => true
  | x :: xs => x.canon && canonL xs
def canonO : List (Str × Json) → Bool
  | [] => true
  | (_, v) :: xs => v.canon && canonO xs
end

/-! ### Elementary facts -/

theorem lookup_insertKV (k k' : Str) (v : Json) (l : List (Str × Json)) :
    lookup k' (insertKV k v l) = if k = k' then some v else lookup k' l := by
  induction l with
  | nil => simp [insertKV, lookup]
  | cons x xs ih =>
    obtain ⟨kx, vx⟩ := x
    simp only [insertKV]
    by_cases h1 : k = kx
    · subst h1
      simp only [if_true, lookup]
      split <;> rfl
    · simp only [h1, if_false]
      by_cases h2 : strLt k kx = true
      · simp [h2, lookup]
      · simp only [h2, lookup]
        by_cases h3 : kx = k'
        · subst h3; simp [lookup, h1]
        · simp [h3, lookup, ih]

theorem find?_put (j : Json) (k k' : Str) (v : Json) :
    (j.put k v).find? k' = if k = k' then some v else j.find? k' := by
  cases j <;> simp [put, find?, lookup, lookup_insertKV]

theorem find?_set {j : Json} {k : Str} {v j' : Json} (h : j.set k v = .ok j') (k' : Str) :
    j'.find? k' = if k = k' then some v else j.find? k' := by
  cases j <;> simp [set] at h <;> subst h <;> simp [find?, lookup, lookup_insertKV]

theorem put_isObj (j : Json) (k : Str) (v : Json) : (j.put k v).isObj = true := by
  cases j <;> simp [put, isObj]

theorem value_of_find {α : Type} {j : Json} {k : Str} {conv : Json → Res α} {d : α} {v : Json}
    (h : j.find? k = some v) : j.value k conv d = conv v := by
  cases j <;> simp [find?] at h
  simp [value, h]

theorem sortedKeys_tail {x : Str × Json} {l : List (Str × Json)} (h : sortedKeys (x :: l) = true) :
    sortedKeys l = true := by
  cases l with
  | nil => rfl
  | cons y ys => simp [sortedKeys] at h; exact h.2

theorem sortedKeys_insertKV (k : Str) (v : Json) (l : List (Str × Json))
    (h : sortedKeys l = true) : sortedKeys (insertKV k v l) = true := by
  induction l with
  | nil => rfl
  | cons x xs ih =>
    obtain ⟨kx, vx⟩ := x
    simp only [insertKV]
    by_cases h1 : k = kx
    · subst h1
      simp only [if_true]
      cases xs with
      | nil => rfl
      | cons y ys => simpa [sortedKeys] using h
    · simp only [h1, if_false]
      by_cases h2 : strLt k kx = true
      · simp [h2, sortedKeys, h]
      · have h2' : strLt k kx = false := by simpa using h2
        simp only [h2', Bool.false_eq_true, if_false]
        have hlt : strLt kx k = true := strLt_total h1 h2'
        have ih' := ih (sortedKeys_tail h)
        cases xs with
        | nil => simp [insertKV, sortedKeys, hlt]
        | cons y ys =>
          obtain ⟨ky, vy⟩ := y
          simp only [insertKV] at ih' ⊢
          by_cases h3 : k = ky
          · subst h3; simp at ih' ⊢; simp [sortedKeys, hlt]; simpa using ih'
          · simp only [h3, if_false] at ih' ⊢
            by_cases h4 : strLt k ky = true
            · simp only [h4, if_true] at ih' ⊢
              simp [sortedKeys, hlt]; simpa [sortedKeys] using ih'
            · have h4' : strLt k ky = false := by simpa using h4
              simp only [h4', Bool.false_eq_true, if_false] at ih' ⊢
              simp [sortedKeys] at h
              simp [sortedKeys, h.1]; exact ih'

theorem canonO_insertKV (k : Str) (v : Json) (l : List (Str × Json))
    (h : canonO l = true) (hv : v.canon = true) : canonO (insertKV k v l) = true := by
  induction l with
  | nil => simp [insertKV, canonO, hv]
  | cons x xs ih =>
    obtain ⟨kx, vx⟩ := x
    simp [canonO] at h
    simp only [insertKV]
    split
    · simp [canonO, hv, h.2]
    · split
      · simp [canonO, hv, h.1, h.2]
      · simp [canonO, h.1, ih h.2]

theorem allStrO_insertKV (p : Str → Bool) (k : Str) (v : Json) (l : List (Str × Json))
    (h : allStrO p l = true) (hk : p k = true) (hv : v.allStr p = true) :
    allStrO p (insertKV k v l) = true := by
  induction l with
  | nil => simp [insertKV, allStrO, hk, hv]
  | cons x xs ih =>
    obtain ⟨kx, vx⟩ := x
    simp [allStrO] at h
    simp only [insertKV]
    split
    · simp [allStrO, hk, hv, h.2]
    · split
      · simp [allStrO, hk, hv, h]
      · simp [allStrO, h, ih h.2]

theorem canon_put {j : Json} (k : Str) {v : Json} (h : j.canon = true) (hv : v.canon = true) :
    (j.put k v).canon = true := by
  cases j with
  | obj kvs =>
    simp [canon] at h
    simp [put, canon, sortedKeys_insertKV k v kvs h.1, canonO_insertKV k v kvs h.2 hv]
  | _ => simp [put, canon, sortedKeys, canonO, hv]

theorem allStr_put {p : Str → Bool} {j : Json} {k : Str} {v : Json} (h : j.allStr p = true)
    (hk : p k = true) (hv : v.allStr p = true) : (j.put k v).allStr p = true := by
  cases j with
  | obj kvs =>
    simp [allStr] at h
    simp [put, allStr, allStrO_insertKV p k v kvs h hk hv]
  | _ => simp [put, allStr, allStrO, hk, hv]

theorem lookup_mem {k : Str} {l : List (Str × Json)} {v : Json} (h : lookup k l = some v) :
    (k, v) ∈ l := by
  induction l with
  | nil => simp [lookup] at h
  | cons x xs ih =>
    obtain ⟨kx, vx⟩ := x
    simp only [lookup] at h
    split at h
    · next he => simp at h; subst he; subst h; simp
    · exact List.mem_cons_of_mem _ (ih h)

theorem allStrO_mem {p : Str → Bool} {l : List (Str × Json)} (h : allStrO p l = true)
    {k : Str} {v : Json} (hm : (k, v) ∈ l) : p k = true ∧ v.allStr p = true := by
  induction l with
  | nil => simp at hm
  | cons x xs ih =>
    obtain ⟨kx, vx⟩ := x
    simp [allStrO] at h
    rcases List.mem_cons.1 hm with h1 | h1
    · simp at h1; obtain ⟨rfl, rfl⟩ := h1; exact h.1
    · exact ih h.2 h1

theorem allStr_find {p : Str → Bool} {j : Json} (h : j.allStr p = true) {k : Str} {v : Json}
    (hf : j.find? k = some v) : v.allStr p = true := by
  cases j <;> simp [find?] at hf
  simp [allStr] at h
  exact (allStrO_mem h (lookup_mem hf)).2

end Json
end Xeus
