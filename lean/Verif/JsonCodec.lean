import Verif.Wire.Spec
import Verif.Utf8.Lemmas
import Verif.Digits
import Verif.Double
import Verif.Wire.Lemmas

/-!
# A concrete JSON printer and parser

A concrete `Codec` satisfying `Spec.LawfulCodec`: it shows that the laws assumed of nlohmann::json are
satisfiable, and instantiates the theorems.  The printer follows `json::dump(-1, ' ', false, handler)`
(compact form, `dump_escaped`), except that doubles are printed as their exact decimal value with the exponent -1075
instead of the shortest one that denotes them (a double that is not finite as `null`); the parser follows RFC 8259
restricted to integers and numbers with the exponent -1075 that are doubles (other numbers with a fraction or an
exponent, or outside 64 bits, are refused).
-/

namespace Xeus

open Spec

/-! ## Printer -/

/-- `dump_escaped` on one byte of valid UTF-8 text. -/
def escByte (b : UInt8) : Str :=
  if b = 34 then [92, 34]
  else if b = 92 then [92, 92]
  else if b = 8 then [92, 98]
  else if b = 12 then [92, 102]
  else if b = 10 then [92, 110]
  else if b = 13 then [92, 114]
  else if b = 9 then [92, 116]
  else if b < 32 then [92, 117, 48, 48, hexDigit (b.toNat / 16), hexDigit (b.toNat % 16)]
  else [b]

def escStr (s : Str) : Str := s.flatMap escByte

def printStr (s : Str) : Str := 34 :: (escStr s ++ [34])

/-- The denominator of the exact value of a double is a power of ten. -/
def fives : Nat := 5 ^ 1075

def exponent : Str := [101, 45, 49, 48, 55, 53]

/-- The exact value of a double. -/
def printScaled (d : Nat) (b : UInt64) : Str :=
  if Double.isFinite b then
    (if Double.neg b then [45] else []) ++ (natDigits (Double.scaled b * d) ++ exponent)
  else [110, 117, 108, 108]

def printFloat (b : UInt64) : Str := printScaled fives b

mutual
/-- Compact printing. -/
def printJson : Json → Str
  | .null => [110, 117, 108, 108]
  | .bool true => [116, 114, 117, 101]
  | .bool false => [102, 97, 108, 115, 101]
  | .int i => intToString i
  | .float b => printFloat b
  | .str s => printStr s
  | .arr xs => 91 :: printElems xs
  | .obj kvs => 123 :: printMembers kvs
/-- Elements, comma separated, and the closing bracket. -/
def printElems : List Json → Str
  | [] => [93]
  | [x] => printJson x ++ [93]
  | x :: y :: r => printJson x ++ 44 :: printElems (y :: r)
/-- Members, comma separated, and the closing brace. -/
def printMembers : List (Str × Json) → Str
  | [] => [125]
  | [(k, v)] => printStr k ++ 58 :: (printJson v ++ [125])
  | (k, v) :: y :: r => printStr k ++ 58 :: (printJson v ++ 44 :: printMembers (y :: r))
end

/-- What the lenient handlers make of invalid UTF-8: `ignore` drops, `replace` emits U+FFFD. -/
def badUtf8 : ErrH → Str
  | .replace => [0xEF, 0xBF, 0xBD]
  | _ => []

/-- Lenient treatment of one string (`dump_escaped` of nlohmann::json with the lenient handlers):
`st` automaton state, `pend` bytes read since the last complete character. -/
def sanitizeStr (eh : ErrH) (st : Nat) (pend : Str) : Str → Str
  | [] => if st = 0 then [] else badUtf8 eh
  | b :: s =>
    match utf8Step st b with
    | 0 => pend ++ b :: sanitizeStr eh 0 [] s
    | 1 =>
      badUtf8 eh ++
        (if pend = [] then sanitizeStr eh 0 [] s
         else match utf8Step 0 b with
          | 0 => b :: sanitizeStr eh 0 [] s
          | 1 => badUtf8 eh ++ sanitizeStr eh 0 [] s
          | st' => sanitizeStr eh st' [b] s)
    | st' => sanitizeStr eh st' (pend ++ [b]) s

mutual
def mapStr (f : Str → Str) : Json → Json
  | .str s => .str (f s)
  | .arr xs => .arr (mapStrL f xs)
  | .obj kvs => .obj (mapStrO f kvs)
  | j => j
def mapStrL (f : Str → Str) : List Json → List Json
  | [] => []
  | x :: xs => mapStr f x :: mapStrL f xs
def mapStrO (f : Str → Str) : List (Str × Json) → List (Str × Json)
  | [] => []
  | (k, v) :: r => (f k, mapStr f v) :: mapStrO f r
end

def dumpJson (eh : ErrH) (j : Json) : Option Str :=
  if j.allStr utf8b then some (printJson j)
  else if eh = .strict then none
  else some (printJson (mapStr (sanitizeStr eh 0 []) j))

/-! ## Parser -/

/-- JSON whitespace. -/
def isWs (c : UInt8) : Bool := c == 32 || c == 9 || c == 10 || c == 13

def skipWs : Str → Str
  | [] => []
  | c :: s => if isWs c then skipWs s else c :: s

/-- Hexadecimal digit of either case. -/
def hexAny (c : UInt8) : Option Nat :=
  if 48 ≤ c ∧ c ≤ 57 then some (c.toNat - 48)
  else if 97 ≤ c ∧ c ≤ 102 then some (c.toNat - 87)
  else if 65 ≤ c ∧ c ≤ 70 then some (c.toNat - 55)
  else none

def hex4 (a b c d : UInt8) : Option Nat := do
  let w ← hexAny a
  let x ← hexAny b
  let y ← hexAny c
  let z ← hexAny d
  return 4096 * w + 256 * x + 16 * y + z

/-- UTF-8 encoding of a code point. -/
def encodeCp (n : Nat) : Str :=
  if n < 0x80 then [UInt8.ofNat n]
  else if n < 0x800 then [UInt8.ofNat (0xC0 + n / 64), UInt8.ofNat (0x80 + n % 64)]
  else if n < 0x10000 then
    [UInt8.ofNat (0xE0 + n / 4096), UInt8.ofNat (0x80 + n / 64 % 64), UInt8.ofNat (0x80 + n % 64)]
  else
    [UInt8.ofNat (0xF0 + n / 262144), UInt8.ofNat (0x80 + n / 4096 % 64),
     UInt8.ofNat (0x80 + n / 64 % 64), UInt8.ofNat (0x80 + n % 64)]

/-- Simple escapes. -/
def unesc (c : UInt8) : Option UInt8 :=
  if c = 34 then some 34
  else if c = 92 then some 92
  else if c = 47 then some 47
  else if c = 98 then some 8
  else if c = 102 then some 12
  else if c = 110 then some 10
  else if c = 114 then some 13
  else if c = 116 then some 9
  else none

/-- String body up to the closing quote; fuel bounds the number of characters. -/
def parseStrBody : Nat → Str → Option (Str × Str)
  | 0, _ => none
  | _ + 1, [] => none
  | f + 1, c :: r =>
    if c = 34 then some ([], r)
    else if c = 92 then
      match r with
      | [] => none
      | e :: r =>
        if e = 117 then
          match r with
          | a :: b :: c :: d :: r =>
            match hex4 a b c d with
            | none => none
            | some n =>
              if 0xD800 ≤ n ∧ n < 0xDC00 then
                match r with
                | 92 :: 117 :: a' :: b' :: c' :: d' :: r =>
                  match hex4 a' b' c' d' with
                  | none => none
                  | some m =>
                    if 0xDC00 ≤ m ∧ m < 0xE000 then
                      (parseStrBody f r).map fun (s, r) =>
                        (encodeCp (0x10000 + (n - 0xD800) * 1024 + (m - 0xDC00)) ++ s, r)
                    else none
                | _ => none
              else if 0xDC00 ≤ n ∧ n < 0xE000 then none
              else (parseStrBody f r).map fun (s, r) => (encodeCp n ++ s, r)
          | _ => none
        else
          match unesc e with
          | none => none
          | some x => (parseStrBody f r).map fun (s, r) => (x :: s, r)
    else if c < 32 then none
    else (parseStrBody f r).map fun (s, r) => (c :: s, r)

/-- A string after its opening quote, with the UTF-8 check of the lexer. -/
def parseStr (s : Str) : Option (Str × Str) :=
  match parseStrBody s.length s with
  | some (x, r) => if utf8b x then some (x, r) else none
  | none => none

def takeDigits : Str → Str × Str
  | [] => ([], [])
  | c :: s => if isDigit c then ((c :: (takeDigits s).1), (takeDigits s).2) else ([], c :: s)

/-- Unsigned integer part: no leading zeros, at least one digit. -/
def parseNat (s : Str) : Option (Nat × Str) :=
  match takeDigits s with
  | ([], _) => none
  | (48 :: _ :: _, _) => none
  | (ds, r) => match r with
    | 46 :: _ => none
    | 101 :: _ => none
    | 69 :: _ => none
    | _ => some (digitsVal 0 ds, r)

/-- The magnitude of a number with the exponent -1075. -/
def parseExact (d : Nat) (sign : Bool) (s : Str) : Option (Json × Str) :=
  if (takeDigits s).1 ≠ [] ∧ ((takeDigits s).1.head? = some 48 → (takeDigits s).1.length = 1) ∧
      (takeDigits s).2.take 6 = exponent ∧ digitsVal 0 (takeDigits s).1 % d = 0 then
    (Double.unscale sign (digitsVal 0 (takeDigits s).1 / d)).map fun b => (.float b, (takeDigits s).2.drop 6)
  else none

def parseScaled (d : Nat) (s : Str) : Option (Json × Str) :=
  match s with
  | 45 :: r => parseExact d true r
  | _ => parseExact d false s

def parseFloat (s : Str) : Option (Json × Str) := parseScaled fives s

def parseInteger (s : Str) : Option (Json × Str) :=
  match s with
  | 45 :: r => match parseNat r with
    | some (n, r) => if Json.inRange (-(n : Int)) then some (.int (-(n : Int)), r) else none
    | none => none
  | _ => match parseNat s with
    | some (n, r) => if Json.inRange (n : Int) then some (.int (n : Int), r) else none
    | none => none

def parseNum (s : Str) : Option (Json × Str) :=
  match parseFloat s with
  | some x => some x
  | none => parseInteger s

mutual
def parseVal : Nat → Str → Option (Json × Str)
  | 0, _ => none
  | f + 1, s =>
    match skipWs s with
    | [] => none
    | c :: r =>
      if c = 110 then match r with
        | 117 :: 108 :: 108 :: r => some (.null, r)
        | _ => none
      else if c = 116 then match r with
        | 114 :: 117 :: 101 :: r => some (.bool true, r)
        | _ => none
      else if c = 102 then match r with
        | 97 :: 108 :: 115 :: 101 :: r => some (.bool false, r)
        | _ => none
      else if c = 34 then (parseStr r).map fun (x, r) => (.str x, r)
      else if c = 91 then
        match skipWs r with
        | 93 :: r => some (.arr [], r)
        | r => (parseElems f r).map fun (xs, r) => (.arr xs, r)
      else if c = 123 then
        match skipWs r with
        | 125 :: r => some (.obj [], r)
        | r => (parseMembers f r).map fun (kvs, r) =>
            (.obj (kvs.foldl (fun acc kv => Json.insertKV kv.1 kv.2 acc) []), r)
      else parseNum (c :: r)
def parseElems : Nat → Str → Option (List Json × Str)
  | 0, _ => none
  | f + 1, s =>
    match parseVal f s with
    | none => none
    | some (x, r) =>
      match skipWs r with
      | 44 :: r => (parseElems f r).map fun (xs, r) => (x :: xs, r)
      | 93 :: r => some ([x], r)
      | _ => none
def parseMembers : Nat → Str → Option (List (Str × Json) × Str)
  | 0, _ => none
  | f + 1, s =>
    match skipWs s with
    | 34 :: r =>
      match parseStr r with
      | none => none
      | some (k, r) =>
        match skipWs r with
        | 58 :: r =>
          match parseVal f r with
          | none => none
          | some (v, r) =>
            match skipWs r with
            | 44 :: r => (parseMembers f r).map fun (kvs, r) => ((k, v) :: kvs, r)
            | 125 :: r => some ([(k, v)], r)
            | _ => none
        | _ => none
    | _ => none
end

/-- `json::parse`: optional byte order mark, one value, nothing else but whitespace. -/
def parseJson (s : Str) : Option Json :=
  let s := match s with
    | 0xEF :: 0xBB :: 0xBF :: r => r
    | s => s
  match parseVal (s.length + 1) s with
  | some (j, r) => if skipWs r = [] then some j else none
  | none => none

/-- The concrete codec. -/
def stdCodec : Codec := ⟨parseJson, dumpJson⟩

/-! ## `JsonUtf8` is decidable -/

mutual
theorem jsonUtf8_iff : ∀ j : Json, JsonUtf8 j ↔ j.allStr utf8b = true
  | .null => by simp [Json.allStr]; exact .null
  | .bool _ => by simp [Json.allStr]; exact .bool
  | .int _ => by simp [Json.allStr]; exact .int
  | .float _ => by simp [Json.allStr]; exact .float
  | .str s => by
    simp only [Json.allStr, utf8b_iff]
    exact ⟨fun h => by cases h; assumption, .str⟩
  | .arr xs => by
    simp only [Json.allStr]
    rw [← jsonUtf8L_iff xs]
    exact ⟨fun h => by cases h; assumption, .arr⟩
  | .obj kvs => by
    simp only [Json.allStr]
    rw [← jsonUtf8O_iff kvs]
    exact ⟨fun h => by cases h; constructor <;> assumption, fun h => .obj h.1 h.2⟩
theorem jsonUtf8L_iff : ∀ xs : List Json, (∀ x ∈ xs, JsonUtf8 x) ↔ Json.allStrL utf8b xs = true
  | [] => by simp [Json.allStrL]
  | x :: xs => by
    have h1 := jsonUtf8_iff x
    have h2 := jsonUtf8L_iff xs
    simp only [List.mem_cons, forall_eq_or_imp, Json.allStrL, Bool.and_eq_true]
    rw [h1, h2]
theorem jsonUtf8O_iff : ∀ xs : List (Str × Json),
    ((∀ kv ∈ xs, Utf8 kv.1) ∧ (∀ kv ∈ xs, JsonUtf8 kv.2)) ↔ Json.allStrO utf8b xs = true
  | [] => by simp [Json.allStrO]
  | (k, v) :: xs => by
    have h1 := jsonUtf8_iff v
    have h2 := jsonUtf8O_iff xs
    simp only [List.mem_cons, forall_eq_or_imp, Json.allStrO, Bool.and_eq_true, utf8b_iff]
    rw [← h2, ← h1]
    constructor
    · rintro ⟨⟨a, b⟩, c, d⟩; exact ⟨⟨a, c⟩, b, d⟩
    · rintro ⟨⟨a, c⟩, b, d⟩; exact ⟨⟨a, b⟩, c, d⟩
end

instance (j : Json) : Decidable (JsonUtf8 j) := decidable_of_iff _ (jsonUtf8_iff j).symm

/-! ## Round trip -/

theorem hexAny_hexDigit : ∀ n : Fin 16, hexAny (hexDigit n.val) = some n.val := by decide

theorem encodeCp_low : ∀ b : Fin 32, encodeCp b.val = [UInt8.ofNat b.val] := by decide

theorem hex4_low : ∀ b : Fin 32,
    hex4 48 48 (hexDigit (b.val / 16)) (hexDigit (b.val % 16)) = some b.val := by decide

theorem parseStrBody_esc (b : UInt8) (f : Nat) (t : Str) :
    parseStrBody (f + 1) (escByte b ++ t) = (parseStrBody f t).map fun (s, r) => (b :: s, r) := by
  unfold escByte
  split
  · next h => subst h; rfl
  split
  · next h => subst h; rfl
  split
  · next h => subst h; rfl
  split
  · next h => subst h; rfl
  split
  · next h => subst h; rfl
  split
  · next h => subst h; rfl
  split
  · next h => subst h; rfl
  split
  · next h =>
    have hb : b.toNat < 32 := by simpa [UInt8.lt_iff_toNat_lt] using h
    have h4 := hex4_low ⟨b.toNat, hb⟩
    have he := encodeCp_low ⟨b.toNat, hb⟩
    simp only [UInt8.ofNat_toNat] at he
    simp only [List.cons_append, List.nil_append, parseStrBody]
    rw [if_neg (by decide), if_pos trivial, if_pos trivial, h4]
    simp only
    rw [if_neg (by omega), if_neg (by omega), he]
    rfl
  · next h1 h2 _ _ _ _ _ h3 =>
    simp only [List.cons_append, List.nil_append, parseStrBody]
    rw [if_neg h1, if_neg h2, if_neg h3]

theorem parseStrBody_roundtrip (s : Str) (f : Nat) (h : s.length < f) (t : Str) :
    parseStrBody f (escStr s ++ 34 :: t) = some (s, t) := by
  induction s generalizing f with
  | nil =>
    cases f with
    | zero => simp at h
    | succ f => simp [escStr, parseStrBody]
  | cons b s ih =>
    cases f with
    | zero => simp at h
    | succ f =>
      have : escStr (b :: s) ++ 34 :: t = escByte b ++ (escStr s ++ 34 :: t) := by
        simp [escStr]
      rw [this, parseStrBody_esc, ih f (by simpa using h)]
      rfl

theorem escByte_length (b : UInt8) : 1 ≤ (escByte b).length := by
  unfold escByte
  repeat (split; · simp)
  simp

theorem escStr_length (s : Str) : s.length ≤ (escStr s).length := by
  induction s with
  | nil => simp
  | cons b s ih =>
    have := escByte_length b
    simp only [escStr, List.flatMap_cons, List.length_append, List.length_cons] at *
    omega

theorem parseStr_roundtrip (s t : Str) (h : utf8b s = true) :
    parseStr (escStr s ++ 34 :: t) = some (s, t) := by
  unfold parseStr
  rw [parseStrBody_roundtrip]
  · simp [h]
  · have := escStr_length s
    simp; omega

/-- What may follow a value inside a printed document. -/
def okRest (r : Str) : Prop := r = [] ∨ ∃ c t, r = c :: t ∧ (c = 44 ∨ c = 93 ∨ c = 125)

theorem okRest_head {r : Str} (h : okRest r) : ∀ c t, r = c :: t → isDigit c = false ∧ c ≠ 46 ∧ c ≠ 101 ∧ c ≠ 69 ∧ isWs c = false := by
  rintro c t rfl
  rcases h with h | ⟨c', t', h, h'⟩
  · simp at h
  · simp at h
    obtain ⟨rfl, rfl⟩ := h
    rcases h' with rfl | rfl | rfl <;> decide

theorem takeDigits_append (ds r : Str) (hd : ∀ c ∈ ds, isDigit c = true)
    (hr : ∀ c t, r = c :: t → isDigit c = false) : takeDigits (ds ++ r) = (ds, r) := by
  induction ds with
  | nil =>
    cases r with
    | nil => rfl
    | cons c t => simp [takeDigits, hr c t rfl]
  | cons c ds ih =>
    have := ih (fun x hx => hd x (by simp [hx]))
    simp [takeDigits, hd c (by simp), this]

theorem parseNat_roundtrip (n : Nat) (r : Str) (hr : okRest r) :
    parseNat (natDigits n ++ r) = some (n, r) := by
  obtain ⟨h1, h2, h3, h4, h5⟩ := natDigits_spec n
  have hh := okRest_head hr
  unfold parseNat
  rw [takeDigits_append _ _ h2 (fun c t e => (hh c t e).1)]
  split
  · next he => simp at he; exact absurd he.1 h1
  · next he =>
    simp at he
    by_cases hn : n = 0
    · rw [h5 hn] at he; simp at he
    · have := h4 (by omega)
      rw [he.1] at this
      simp at this
  · next he =>
    simp at he
    obtain ⟨he1, he2⟩ := he
    subst he1; subst he2
    split
    · exact absurd rfl (hh _ _ rfl).2.1
    · exact absurd rfl (hh _ _ rfl).2.2.1
    · exact absurd rfl (hh _ _ rfl).2.2.2.1
    · rw [h3]

theorem parseInteger_roundtrip (i : Int) (hi : Json.inRange i = true) (r : Str) (hr : okRest r) :
    parseInteger (intToString i ++ r) = some (.int i, r) := by
  unfold intToString
  split
  · next hneg =>
    simp only [List.cons_append, parseInteger]
    rw [parseNat_roundtrip _ _ hr]
    have : (-((i.natAbs : Nat) : Int)) = i := by omega
    simp [this, hi]
  · next hneg =>
    have hn : ((i.natAbs : Nat) : Int) = i := by omega
    have hp := parseNat_roundtrip i.natAbs r hr
    unfold parseInteger
    split
    · next s r' he =>
      exfalso
      obtain ⟨h1, h2, _⟩ := natDigits_spec i.natAbs
      cases hd : natDigits i.natAbs with
      | nil => exact h1 hd
      | cons c t =>
        rw [hd] at he
        simp at he
        have := h2 c (by simp [hd])
        rw [he.1] at this
        exact absurd this (by decide)
    · rw [hp]
      simp [hn, hi]

theorem natDigits_head {n : Nat} {r t : Str} (h : natDigits n ++ r = 45 :: t) : False := by
  obtain ⟨h1, h2, _⟩ := natDigits_spec n
  cases hd : natDigits n with
  | nil => exact h1 hd
  | cons c t =>
    rw [hd] at h
    simp at h
    have := h2 c (by simp [hd])
    rw [h.1] at this
    exact absurd this (by decide)

theorem parseExact_int (d : Nat) (sign : Bool) (n : Nat) {r : Str} (hr : okRest r) : parseExact d sign (natDigits n ++ r) = none := by
  obtain ⟨_, h2, _⟩ := natDigits_spec n
  have hh := okRest_head hr
  unfold parseExact
  rw [takeDigits_append _ _ h2 (fun c t e => (hh c t e).1)]
  refine if_neg fun h => ?_
  have h := h.2.2.1
  cases r with
  | nil => simp [exponent] at h
  | cons c t =>
    simp [exponent] at h
    exact (hh c t rfl).2.2.1 h.1

theorem parseNum_roundtrip (i : Int) (hi : Json.inRange i = true) (r : Str) (hr : okRest r) :
    parseNum (intToString i ++ r) = some (.int i, r) := by
  have : parseFloat (intToString i ++ r) = none := by
    unfold intToString
    split
    · exact parseExact_int _ true _ hr
    · unfold parseFloat parseScaled
      split
      · next he => exact (natDigits_head he).elim
      · exact parseExact_int _ false _ hr
  rw [parseNum, this]
  exact parseInteger_roundtrip i hi r hr

theorem parseExact_digits (x d : Nat) (hd : 0 < d) (r : Str) :
    (takeDigits (natDigits (x * d) ++ (exponent ++ r))) = (natDigits (x * d), exponent ++ r) ∧ natDigits (x * d) ≠ [] ∧
    ((natDigits (x * d)).head? = some 48 → (natDigits (x * d)).length = 1) ∧
    digitsVal 0 (natDigits (x * d)) % d = 0 ∧ digitsVal 0 (natDigits (x * d)) / d = x := by
  obtain ⟨h1, h2, h3, h4, h5⟩ := natDigits_spec (x * d)
  refine ⟨takeDigits_append _ _ h2 (fun c t e => by simp [exponent] at e; rw [← e.1]; decide), h1, ?_, ?_, ?_⟩
  · intro h
    by_cases h0 : x * d = 0
    · rw [h5 h0]; rfl
    · exact absurd h (h4 (by omega))
  · rw [h3]; exact Nat.mul_mod_left _ _
  · rw [h3]; exact Nat.mul_div_cancel _ hd

theorem pow_five_pos (n : Nat) : 0 < 5 ^ n := Nat.pow_pos (by decide)

theorem fives_pos : 0 < fives := by unfold fives; exact pow_five_pos _

theorem parseExact_roundtrip {d : Nat} (hd : 0 < d) (b : UInt64) (hb : Double.isFinite b = true) (r : Str) :
    parseExact d (Double.neg b) (natDigits (Double.scaled b * d) ++ (exponent ++ r)) = some (.float b, r) := by
  obtain ⟨h1, h2, h3, h4, h5⟩ := parseExact_digits (Double.scaled b) d hd r
  unfold parseExact
  rw [h1, if_pos ⟨h2, h3, rfl, h4⟩, h5, Double.unscale_scaled b hb]
  rfl

theorem printScaled_head (d : Nat) (b : UInt64) :
    ∃ c t, printScaled d b = c :: t ∧ (c = 45 ∨ isDigit c = true ∨ c = 110) := by
  unfold printScaled
  split
  · cases Double.neg b with
    | true => exact ⟨45, _, rfl, .inl rfl⟩
    | false =>
      obtain ⟨h1, h2, _⟩ := natDigits_spec (Double.scaled b * d)
      generalize natDigits (Double.scaled b * d) = ds at *
      cases ds with
      | nil => exact absurd rfl h1
      | cons c t => exact ⟨c, _, rfl, .inr (.inl (h2 c (by simp)))⟩
  · exact ⟨110, _, rfl, .inr (.inr rfl)⟩

theorem printFloat_head (b : UInt64) : ∃ c t, printFloat b = c :: t ∧ (c = 45 ∨ isDigit c = true ∨ c = 110) :=
  printScaled_head fives b

theorem parseScaled_roundtrip {d : Nat} (hd : 0 < d) (b : UInt64) (hb : Double.isFinite b = true) (r : Str) :
    parseScaled d (printScaled d b ++ r) = some (.float b, r) := by
  have hr := parseExact_roundtrip hd b hb r
  have hh : ∀ r t, natDigits (Double.scaled b * d) ++ r = 45 :: t → False := fun r t => natDigits_head
  unfold printScaled
  rw [if_pos hb]
  generalize natDigits (Double.scaled b * d) = ds at hr hh
  cases hn : Double.neg b with
  | true => rw [hn] at hr; simpa [parseScaled] using hr
  | false =>
    rw [hn] at hr
    simp only [Bool.false_eq_true, if_false, List.nil_append, List.append_assoc]
    unfold parseScaled
    split
    · next he => exact (hh _ _ he).elim
    · exact hr

theorem parseFloat_roundtrip (b : UInt64) (hb : Double.isFinite b = true) (r : Str) :
    parseNum (printFloat b ++ r) = some (.float b, r) := by
  have : parseFloat (printFloat b ++ r) = some (.float b, r) := parseScaled_roundtrip fives_pos b hb r
  rw [parseNum, this]

theorem skipWs_cons {c : UInt8} (h : isWs c = false) (s : Str) : skipWs (c :: s) = c :: s := by
  simp [skipWs, h]

theorem okRest_skip {r : Str} (h : okRest r) : skipWs r = r := by
  cases r with
  | nil => rfl
  | cons c t => exact skipWs_cons (okRest_head h c t rfl).2.2.2.2 t

/-- First byte of a printed value: not whitespace, and not a closing bracket. -/
theorem printJson_head (j : Json) : ∃ c t, printJson j = c :: t ∧ isWs c = false ∧ c ≠ 93 ∧ c ≠ 125 := by
  cases j with
  | null => exact ⟨_, _, rfl, by decide⟩
  | bool b => cases b <;> exact ⟨_, _, rfl, by decide⟩
  | int i =>
    simp only [printJson, intToString]
    obtain ⟨h1, h2, _⟩ := natDigits_spec i.natAbs
    split
    · exact ⟨_, _, rfl, by decide⟩
    · cases hd : natDigits i.natAbs with
      | nil => exact absurd hd h1
      | cons c t =>
        refine ⟨c, t, rfl, ?_⟩
        have := h2 c (by simp [hd])
        obtain ⟨l, u⟩ := isDigit_ascii this
        refine ⟨?_, ?_, ?_⟩
        · simp only [isWs, Bool.or_eq_false_iff, beq_eq_false_iff_ne]
          refine ⟨⟨⟨?_, ?_⟩, ?_⟩, ?_⟩ <;> (rintro rfl; simp at l)
        · rintro rfl; simp at u
        · rintro rfl; simp at u
  | float b =>
    obtain ⟨c, t, h, h'⟩ := printFloat_head b
    refine ⟨c, t, h, ?_⟩
    rcases h' with rfl | h' | rfl
    · decide
    · obtain ⟨l, u⟩ := isDigit_ascii h'
      refine ⟨?_, ?_, ?_⟩
      · simp only [isWs, Bool.or_eq_false_iff, beq_eq_false_iff_ne]
        refine ⟨⟨⟨?_, ?_⟩, ?_⟩, ?_⟩ <;> (rintro rfl; simp at l)
      · rintro rfl; simp at u
      · rintro rfl; simp at u
    · decide
  | str s => exact ⟨_, _, rfl, by decide⟩
  | arr xs => exact ⟨_, _, rfl, by decide⟩
  | obj kvs => exact ⟨_, _, rfl, by decide⟩

theorem intToString_head (i : Int) : ∃ c t, intToString i = c :: t ∧ (c = 45 ∨ isDigit c = true) := by
  obtain ⟨h1, h2, _⟩ := natDigits_spec i.natAbs
  unfold intToString
  split
  · exact ⟨_, _, rfl, by simp⟩
  · cases hd : natDigits i.natAbs with
    | nil => exact absurd hd h1
    | cons c t => exact ⟨c, t, rfl, .inr (h2 c (by simp [hd]))⟩

theorem okRest_nil : okRest [] := .inl rfl
theorem okRest_comma (t : Str) : okRest (44 :: t) := .inr ⟨_, _, rfl, by simp⟩
theorem okRest_brack (t : Str) : okRest (93 :: t) := .inr ⟨_, _, rfl, by simp⟩
theorem okRest_brace (t : Str) : okRest (125 :: t) := .inr ⟨_, _, rfl, by simp⟩

theorem lookup_none_of_sorted {k k' : Str} {v : Json} {l : List (Str × Json)}
    (h : Json.sortedKeys ((k, v) :: l) = true) (hk : strLt k' k = true ∨ k' = k) :
    ∀ x ∈ l, x.1 ≠ k' := by
  induction l generalizing k v with
  | nil => simp
  | cons y ys ih =>
    obtain ⟨ky, vy⟩ := y
    simp [Json.sortedKeys] at h
    have hlt : strLt k' ky = true := by
      rcases hk with hk | rfl
      · exact strLt_trans hk h.1
      · exact h.1
    intro x hx
    rcases List.mem_cons.1 hx with rfl | hx
    · intro he
      simp only at he
      rw [he, strLt_irrefl] at hlt
      exact absurd hlt (by simp)
    · exact ih h.2 (.inl hlt) x hx

theorem insertKV_last (acc : List (Str × Json)) (k : Str) (v : Json)
    (h : ∀ x ∈ acc, strLt x.1 k = true) : Json.insertKV k v acc = acc ++ [(k, v)] := by
  induction acc with
  | nil => rfl
  | cons y ys ih =>
    obtain ⟨ky, vy⟩ := y
    have hy : strLt ky k = true := h (ky, vy) (by simp)
    have hne : k ≠ ky := by
      rintro rfl
      rw [strLt_irrefl] at hy
      exact absurd hy (by simp)
    have := strLt_asymm hy
    simp [Json.insertKV, hne, this, ih fun x hx => h x (by simp [hx])]

theorem foldl_insertKV_sorted (l : List (Str × Json)) : ∀ acc : List (Str × Json),
    Json.sortedKeys l = true → (∀ x ∈ acc, ∀ y ∈ l, strLt x.1 y.1 = true) →
    l.foldl (fun acc kv => Json.insertKV kv.1 kv.2 acc) acc = acc ++ l := by
  induction l with
  | nil => intro acc _ _; simp
  | cons y ys ih =>
    intro acc hs hacc
    obtain ⟨ky, vy⟩ := y
    simp only [List.foldl_cons]
    rw [insertKV_last acc ky vy (fun x hx => hacc x hx (ky, vy) (by simp))]
    rw [ih _ (Json.sortedKeys_tail hs)]
    · simp
    · intro x hx y hy
      rcases List.mem_append.1 hx with hx | hx
      · exact hacc x hx y (by simp [hy])
      · simp only [List.mem_singleton] at hx
        subst hx
        clear ih hacc hx
        induction ys generalizing ky vy with
        | nil => simp at hy
        | cons z zs ihz =>
          obtain ⟨kz, vz⟩ := z
          simp [Json.sortedKeys] at hs
          rcases List.mem_cons.1 hy with rfl | hy
          · exact hs.1
          · exact strLt_trans hs.1 (ihz kz vz hs.2 hy)

theorem printStr_eq (s t : Str) : printStr s ++ t = 34 :: (escStr s ++ 34 :: t) := by
  simp [printStr]

theorem parseNum_n {t : Str} {x : Json × Str} (h : parseNum (110 :: t) = some x) : False := by
  have h0 : takeDigits (110 :: t) = ([], 110 :: t) := by simp [takeDigits, isDigit]
  have h1 : parseFloat (110 :: t) = none := by simp [parseFloat, parseScaled, parseExact, h0]
  have h2 : parseInteger (110 :: t) = none := by simp [parseInteger, parseNat, h0]
  rw [parseNum, h1] at h
  simp [h2] at h

mutual
theorem parseVal_print : ∀ (j : Json) (f : Nat) (r : Str), j.canon = true → j.allStr utf8b = true →
    (printJson j).length ≤ f → okRest r → parseVal f (printJson j ++ r) = some (j, r)
  | .null, f, r, _, _, hf, _ => by
    cases f with
    | zero => simp [printJson] at hf
    | succ f => simp [printJson, parseVal, skipWs, isWs]
  | .bool b, f, r, _, _, hf, _ => by
    cases f with
    | zero => cases b <;> simp [printJson] at hf
    | succ f => cases b <;> simp [printJson, parseVal, skipWs, isWs]
  | .int i, f, r, hc, _, hf, hr => by
    obtain ⟨c, t, h1, h2⟩ := intToString_head i
    cases f with
    | zero => simp [printJson, h1] at hf
    | succ f =>
      have hp := parseNum_roundtrip i (by simpa [Json.canon] using hc) r hr
      simp only [printJson]
      rw [h1] at hp ⊢
      have hne : isWs c = false ∧ c ≠ 110 ∧ c ≠ 116 ∧ c ≠ 102 ∧ c ≠ 34 ∧ c ≠ 91 ∧ c ≠ 123 := by
        rcases h2 with rfl | h2
        · decide
        · obtain ⟨l, u⟩ := isDigit_ascii h2
          refine ⟨?_, ?_, ?_, ?_, ?_, ?_, ?_⟩
          · simp only [isWs, Bool.or_eq_false_iff, beq_eq_false_iff_ne]
            refine ⟨⟨⟨?_, ?_⟩, ?_⟩, ?_⟩ <;> (rintro rfl; simp at l)
          all_goals (rintro rfl; simp at l u)
      obtain ⟨h0, n1, n2, n3, n4, n5, n6⟩ := hne
      simp only [List.cons_append] at hp ⊢
      simp only [parseVal, skipWs_cons h0, n1, n2, n3, n4, n5, n6, if_false]
      exact hp
  | .float b, f, r, hc, _, hf, hr => by
    have hb : Double.isFinite b = true := by simpa [Json.canon] using hc
    obtain ⟨c, t, h1, h2⟩ := printFloat_head b
    cases f with
    | zero => simp [printJson, h1] at hf
    | succ f =>
      have hp := parseFloat_roundtrip b hb r
      simp only [printJson]
      rw [h1] at hp ⊢
      have hd : c = 45 ∨ isDigit c = true := by
        rcases h2 with h | h | rfl
        · exact .inl h
        · exact .inr h
        · exact (parseNum_n hp).elim
      have hne : isWs c = false ∧ c ≠ 110 ∧ c ≠ 116 ∧ c ≠ 102 ∧ c ≠ 34 ∧ c ≠ 91 ∧ c ≠ 123 := by
        rcases hd with rfl | h2
        · decide
        · obtain ⟨l, u⟩ := isDigit_ascii h2
          refine ⟨?_, ?_, ?_, ?_, ?_, ?_, ?_⟩
          · simp only [isWs, Bool.or_eq_false_iff, beq_eq_false_iff_ne]
            refine ⟨⟨⟨?_, ?_⟩, ?_⟩, ?_⟩ <;> (rintro rfl; simp at l)
          all_goals (rintro rfl; simp at l u)
      obtain ⟨h0, n1, n2, n3, n4, n5, n6⟩ := hne
      simp only [List.cons_append] at hp ⊢
      simp only [parseVal, skipWs_cons h0, n1, n2, n3, n4, n5, n6, if_false]
      exact hp
  | .str s, f, r, _, hu, hf, _ => by
    cases f with
    | zero => simp [printJson, printStr] at hf
    | succ f =>
      simp only [printJson, printStr_eq]
      have h0 : isWs 34 = false := by decide
      simp only [parseVal, skipWs_cons h0]
      rw [if_neg (by decide), if_neg (by decide), if_neg (by decide), if_pos trivial]
      rw [parseStr_roundtrip s r (by simpa [Json.allStr] using hu)]
      rfl
  | .arr [], f, r, _, _, hf, _ => by
    cases f with
    | zero => simp [printJson] at hf
    | succ f =>
      simp [printJson, printElems, parseVal, skipWs, isWs]
  | .arr (x :: xs), f, r, hc, hu, hf, hr => by
    cases f with
    | zero => simp [printJson] at hf
    | succ f =>
      simp only [Json.canon] at hc
      simp only [Json.allStr] at hu
      simp only [printJson, List.length_cons, Nat.add_le_add_iff_right] at hf
      have ih := parseElems_print x xs f r hc hu hf
      have hhead : ∃ c t, printElems (x :: xs) ++ r = c :: t ∧ isWs c = false ∧ c ≠ 93 := by
        obtain ⟨c, t, h1, h2, h3, _⟩ := printJson_head x
        cases xs with
        | nil => exact ⟨c, _, by simp only [printElems, h1, List.cons_append]; rfl, h2, h3⟩
        | cons y ys => exact ⟨c, _, by simp only [printElems, h1, List.cons_append]; rfl, h2, h3⟩
      obtain ⟨c, t, h1, h2, h3⟩ := hhead
      simp only [printJson, List.cons_append]
      have h0 : isWs 91 = false := by decide
      simp only [parseVal, skipWs_cons h0]
      rw [if_neg (by decide), if_neg (by decide), if_neg (by decide), if_neg (by decide), if_pos trivial]
      rw [h1] at ih ⊢
      rw [skipWs_cons h2]
      split
      · next h => simp at h; exact absurd h.1 h3
      · rw [ih]; rfl
  | .obj [], f, r, _, _, hf, _ => by
    cases f with
    | zero => simp [printJson] at hf
    | succ f =>
      simp [printJson, printMembers, parseVal, skipWs, isWs]
  | .obj (x :: xs), f, r, hc, hu, hf, hr => by
    cases f with
    | zero => simp [printJson] at hf
    | succ f =>
      simp only [Json.canon, Bool.and_eq_true] at hc
      simp only [Json.allStr] at hu
      simp only [printJson, List.length_cons, Nat.add_le_add_iff_right] at hf
      have ih := parseMembers_print x xs f r hc.2 hu hf
      have hhead : ∃ t, printMembers (x :: xs) ++ r = 34 :: t := by
        obtain ⟨k, v⟩ := x
        cases xs with
        | nil => exact ⟨_, by simp only [printMembers, printStr, List.cons_append]; rfl⟩
        | cons y ys => exact ⟨_, by simp only [printMembers, printStr, List.cons_append]; rfl⟩
      obtain ⟨t, h1⟩ := hhead
      simp only [printJson, List.cons_append]
      have h0 : isWs 123 = false := by decide
      simp only [parseVal, skipWs_cons h0]
      rw [if_neg (by decide), if_neg (by decide), if_neg (by decide), if_neg (by decide),
        if_neg (by decide), if_pos trivial]
      rw [h1] at ih ⊢
      rw [skipWs_cons (by decide)]
      split
      · next h => simp at h
      · rw [ih]
        simp only [Option.map_some]
        rw [foldl_insertKV_sorted _ _ hc.1 (by simp)]
        rfl
theorem parseElems_print : ∀ (x : Json) (xs : List Json) (f : Nat) (r : Str),
    Json.canonL (x :: xs) = true → Json.allStrL utf8b (x :: xs) = true →
    (printElems (x :: xs)).length ≤ f →
    parseElems f (printElems (x :: xs) ++ r) = some (x :: xs, r)
  | x, [], f, r, hc, hu, hf => by
    simp only [Json.canonL, Json.allStrL, Bool.and_eq_true] at hc hu
    cases f with
    | zero => simp [printElems] at hf
    | succ f =>
      simp only [printElems, List.length_append, List.length_cons, List.length_nil] at hf
      have ih := parseVal_print x f (93 :: r) hc.1 hu.1 (by omega) (okRest_brack r)
      simp only [printElems, List.append_assoc, List.cons_append, List.nil_append, parseElems]
      rw [ih]
      simp [skipWs, isWs]
  | x, y :: ys, f, r, hc, hu, hf => by
    have hc' : x.canon = true ∧ Json.canonL (y :: ys) = true := by
      simpa only [Json.canonL, Bool.and_eq_true] using hc
    have hu' : x.allStr utf8b = true ∧ Json.allStrL utf8b (y :: ys) = true := by
      simpa only [Json.allStrL, Bool.and_eq_true] using hu
    cases f with
    | zero => simp [printElems] at hf
    | succ f =>
      simp only [printElems, List.length_append, List.length_cons] at hf
      have ih := parseVal_print x f (44 :: (printElems (y :: ys) ++ r)) hc'.1 hu'.1 (by omega)
        (okRest_comma _)
      have ih2 := parseElems_print y ys f r hc'.2 hu'.2 (by omega)
      simp only [printElems, List.append_assoc, List.cons_append, parseElems]
      rw [ih]
      simp only [skipWs_cons (show isWs 44 = false by decide)]
      rw [ih2]
      rfl
theorem parseMembers_print : ∀ (x : Str × Json) (xs : List (Str × Json)) (f : Nat) (r : Str),
    Json.canonO (x :: xs) = true → Json.allStrO utf8b (x :: xs) = true →
    (printMembers (x :: xs)).length ≤ f →
    parseMembers f (printMembers (x :: xs) ++ r) = some (x :: xs, r)
  | (k, v), [], f, r, hc, hu, hf => by
    simp only [Json.canonO, Json.allStrO, Bool.and_eq_true] at hc hu
    cases f with
    | zero => simp [printMembers] at hf
    | succ f =>
      simp only [printMembers, List.length_append, List.length_cons, List.length_nil] at hf
      have ih := parseVal_print v f (125 :: r) hc.1 hu.1.2 (by omega) (okRest_brace r)
      simp only [printMembers, List.append_assoc, printStr_eq, List.cons_append, List.nil_append,
        parseMembers]
      simp only [skipWs_cons (show isWs 34 = false by decide)]
      rw [parseStr_roundtrip _ _ hu.1.1]
      simp only [skipWs_cons (show isWs 58 = false by decide)]
      rw [ih]
      simp only [skipWs_cons (show isWs 125 = false by decide)]
  | (k, v), y :: ys, f, r, hc, hu, hf => by
    have hc' : v.canon = true ∧ Json.canonO (y :: ys) = true := by
      simpa only [Json.canonO, Bool.and_eq_true] using hc
    have hu' : (utf8b k = true ∧ v.allStr utf8b = true) ∧ Json.allStrO utf8b (y :: ys) = true := by
      simpa only [Json.allStrO, Bool.and_eq_true] using hu
    cases f with
    | zero => simp [printMembers] at hf
    | succ f =>
      simp only [printMembers, List.length_append, List.length_cons] at hf
      have ih := parseVal_print v f (44 :: (printMembers (y :: ys) ++ r)) hc'.1 hu'.1.2 (by omega)
        (okRest_comma _)
      have ih2 := parseMembers_print y ys f r hc'.2 hu'.2 (by omega)
      simp only [printMembers, List.append_assoc, printStr_eq, List.cons_append, parseMembers]
      simp only [skipWs_cons (show isWs 34 = false by decide)]
      rw [parseStr_roundtrip _ _ hu'.1.1]
      simp only [skipWs_cons (show isWs 58 = false by decide)]
      rw [ih]
      simp only [skipWs_cons (show isWs 44 = false by decide)]
      rw [ih2]
      rfl
end

theorem foldl_insertKV_wf (l : List (Str × Json)) : ∀ acc : List (Str × Json),
    Json.sortedKeys acc = true → Json.canonO acc = true → Json.allStrO utf8b acc = true →
    Json.canonO l = true → Json.allStrO utf8b l = true →
    Json.sortedKeys (l.foldl (fun acc kv => Json.insertKV kv.1 kv.2 acc) acc) = true ∧
    Json.canonO (l.foldl (fun acc kv => Json.insertKV kv.1 kv.2 acc) acc) = true ∧
    Json.allStrO utf8b (l.foldl (fun acc kv => Json.insertKV kv.1 kv.2 acc) acc) = true := by
  induction l with
  | nil => intro acc h1 h2 h3 _ _; exact ⟨h1, h2, h3⟩
  | cons y ys ih =>
    intro acc h1 h2 h3 h4 h5
    obtain ⟨k, v⟩ := y
    simp only [Json.canonO, Json.allStrO, Bool.and_eq_true] at h4 h5
    exact ih _ (Json.sortedKeys_insertKV k v acc h1) (Json.canonO_insertKV k v acc h2 h4.1)
      (Json.allStrO_insertKV utf8b k v acc h3 h5.1.1 h5.1.2) h4.2 h5.2

theorem parseStr_wf {s x r : Str} (h : parseStr s = some (x, r)) : utf8b x = true := by
  unfold parseStr at h
  split at h
  · split at h
    · simp at h; obtain ⟨rfl, _⟩ := h; assumption
    · simp at h
  · simp at h

theorem parseExact_wf {d : Nat} {sign : Bool} {s r : Str} {j : Json} (h : parseExact d sign s = some (j, r)) :
    j.canon = true ∧ j.allStr utf8b = true := by
  unfold parseExact at h
  split at h
  · simp only [Option.map_eq_some_iff, Prod.mk.injEq] at h
    obtain ⟨b, hb, rfl, _⟩ := h
    exact ⟨(Double.unscale_some hb).1, rfl⟩
  · simp at h

theorem parseInteger_wf {s r : Str} {j : Json} (h : parseInteger s = some (j, r)) :
    j.canon = true ∧ j.allStr utf8b = true := by
  unfold parseInteger at h
  split at h
  · split at h
    · split at h
      · next hr =>
        simp only [Option.some.injEq, Prod.mk.injEq] at h
        obtain ⟨rfl, _⟩ := h
        simp only [Json.canon, Json.allStr]
        exact ⟨hr, trivial⟩
      · simp at h
    · simp at h
  · split at h
    · split at h
      · next hr =>
        simp only [Option.some.injEq, Prod.mk.injEq] at h
        obtain ⟨rfl, _⟩ := h
        simp only [Json.canon, Json.allStr]
        exact ⟨hr, trivial⟩
      · simp at h
    · simp at h

theorem parseNum_wf {s r : Str} {j : Json} (h : parseNum s = some (j, r)) :
    j.canon = true ∧ j.allStr utf8b = true := by
  unfold parseNum at h
  split at h
  · next x hx =>
    rw [h] at hx
    unfold parseFloat parseScaled at hx
    split at hx <;> exact parseExact_wf hx
  · exact parseInteger_wf h

theorem parse_wf_all (f : Nat) :
    (∀ s j r, parseVal f s = some (j, r) → j.canon = true ∧ j.allStr utf8b = true) ∧
    (∀ s xs r, parseElems f s = some (xs, r) → Json.canonL xs = true ∧ Json.allStrL utf8b xs = true) ∧
    (∀ s kvs r, parseMembers f s = some (kvs, r) →
      Json.canonO kvs = true ∧ Json.allStrO utf8b kvs = true) := by
  induction f with
  | zero => simp [parseVal, parseElems, parseMembers]
  | succ f ih =>
    obtain ⟨ih1, ih2, ih3⟩ := ih
    refine ⟨?_, ?_, ?_⟩
    · intro s j r h
      simp only [parseVal] at h
      split at h
      · simp at h
      split at h
      · split at h
        · simp at h; obtain ⟨rfl, _⟩ := h; simp [Json.canon, Json.allStr]
        · simp at h
      split at h
      · split at h
        · simp at h; obtain ⟨rfl, _⟩ := h; simp [Json.canon, Json.allStr]
        · simp at h
      split at h
      · split at h
        · simp at h; obtain ⟨rfl, _⟩ := h; simp [Json.canon, Json.allStr]
        · simp at h
      split at h
      · simp only [Option.map_eq_some_iff, Prod.mk.injEq] at h
        obtain ⟨⟨x, r'⟩, hp, rfl, _⟩ := h
        simpa [Json.canon, Json.allStr] using parseStr_wf hp
      split at h
      · split at h
        · simp at h; obtain ⟨rfl, _⟩ := h; simp [Json.canon, Json.allStr, Json.canonL, Json.allStrL]
        · simp only [Option.map_eq_some_iff, Prod.mk.injEq] at h
          obtain ⟨⟨x, r'⟩, hp, rfl, _⟩ := h
          simpa [Json.canon, Json.allStr] using ih2 _ _ _ hp
      split at h
      · split at h
        · simp at h; obtain ⟨rfl, _⟩ := h
          simp [Json.canon, Json.allStr, Json.canonO, Json.allStrO, Json.sortedKeys]
        · simp only [Option.map_eq_some_iff, Prod.mk.injEq] at h
          obtain ⟨⟨x, r'⟩, hp, rfl, _⟩ := h
          obtain ⟨h1, h2⟩ := ih3 _ _ _ hp
          have := foldl_insertKV_wf x [] rfl rfl rfl h1 h2
          simp [Json.canon, Json.allStr, this]
      · exact parseNum_wf h
    · intro s xs r h
      simp only [parseElems] at h
      split at h
      · simp at h
      · next x r' hp =>
        have hx := ih1 _ _ _ hp
        split at h
        · simp only [Option.map_eq_some_iff, Prod.mk.injEq] at h
          obtain ⟨⟨y, r''⟩, hp', rfl, _⟩ := h
          have := ih2 _ _ _ hp'
          simp [Json.canonL, Json.allStrL, hx, this]
        · simp at h; obtain ⟨rfl, _⟩ := h; simp [Json.canonL, Json.allStrL, hx]
        · simp at h
    · intro s xs r h
      simp only [parseMembers] at h
      split at h
      · split at h
        · simp at h
        · next k r1 hk =>
          have hk' := parseStr_wf hk
          split at h
          · split at h
            · simp at h
            · next v r2 hv =>
              have hv' := ih1 _ _ _ hv
              split at h
              · simp only [Option.map_eq_some_iff, Prod.mk.injEq] at h
                obtain ⟨⟨y, r''⟩, hp', rfl, _⟩ := h
                have := ih3 _ _ _ hp'
                simp [Json.canonO, Json.allStrO, hk', hv', this]
              · simp at h; obtain ⟨rfl, _⟩ := h; simp [Json.canonO, Json.allStrO, hk', hv']
              · simp at h
          · simp at h
      · simp at h

theorem printJson_ascii_head (j : Json) : ∃ c t, printJson j = c :: t ∧ c ≠ 0xEF := by
  cases j with
  | null => exact ⟨_, _, rfl, by decide⟩
  | bool b => cases b <;> exact ⟨_, _, rfl, by decide⟩
  | int i =>
    obtain ⟨c, t, h, h'⟩ := intToString_head i
    refine ⟨c, t, h, ?_⟩
    rcases h' with rfl | h'
    · decide
    · have := (isDigit_ascii h').2
      rintro rfl
      simp at this
  | float b =>
    obtain ⟨c, t, h, h'⟩ := printFloat_head b
    refine ⟨c, t, h, ?_⟩
    rcases h' with rfl | h' | rfl
    · decide
    · have := (isDigit_ascii h').2
      rintro rfl
      simp at this
    · decide
  | str s => exact ⟨_, _, rfl, by decide⟩
  | arr xs => exact ⟨_, _, rfl, by decide⟩
  | obj kvs => exact ⟨_, _, rfl, by decide⟩

theorem parseJson_print (j : Json) (hc : j.canon = true) (hu : j.allStr utf8b = true) :
    parseJson (printJson j) = some j := by
  obtain ⟨c, t, h, hne⟩ := printJson_ascii_head j
  unfold parseJson
  have hb : (match printJson j with
    | 0xEF :: 0xBB :: 0xBF :: r => r
    | s => s) = printJson j := by
    split
    · next he => rw [h] at he; simp at he; exact absurd he.1 hne
    · rfl
  rw [hb]
  have := parseVal_print j ((printJson j).length + 1) [] hc hu (by omega) okRest_nil
  rw [List.append_nil] at this
  simp [this, skipWs]

/-- The concrete codec satisfies every law assumed of nlohmann::json. -/
theorem stdCodec_lawful : LawfulCodec stdCodec where
  parse_wf := by
    intro s j h
    simp only [stdCodec, parseJson] at h
    split at h
    · next r hp =>
      split at h
      · simp at h; subst h
        have := (parse_wf_all _).1 _ _ _ hp
        exact ⟨this.1, (jsonUtf8_iff _).2 this.2⟩
      · simp at h
    · simp at h
  roundtrip := by
    intro eh j hc hu
    rw [jsonUtf8_iff] at hu
    exact ⟨printJson j, by simp [stdCodec, dumpJson, hu], parseJson_print j hc hu⟩
  dump_strict := by
    intro j hu
    rw [jsonUtf8_iff] at hu
    simp [stdCodec, dumpJson, hu]
  parse_stop := by decide +kernel
  dump_lenient := by
    intro eh j he
    simp only [stdCodec, dumpJson]
    split
    · rfl
    · rfl

end Xeus
