import Verif.History.Model

/-!
# History manager: specifications
-/

namespace Xeus.Spec

open Xeus

/-- The columns of an entry shown to the client: session, line, input (and output on request). -/
def columns (output : Bool) (e : HEntry) : List Str :=
  [e.session, e.line, e.input] ++ (if output then [e.output] else [])

/-- The reply listing `rows`. -/
def okReply (rows : List (List Str)) : Json :=
  .obj [(lit "history", .arr (rows.map fun r => .arr (r.map .str))), (lit "status", .str (lit "ok"))]

/-- Is the value an error reply? -/
def IsErrorReply (j : Json) : Prop := j.find? (lit "status") = some (.str (lit "error"))

/-- The last `n` elements. -/
def lastN {α : Type} (n : Nat) (l : List α) : List α := l.drop (l.length - n)

/-- `r` is `l` with every run of equal adjacent elements replaced by one of them. -/
inductive Collapsed {α : Type} : List α → List α → Prop
  | nil : Collapsed [] []
  | single {x} : Collapsed [x] [x]
  | same {x l r} : Collapsed (x :: l) r → Collapsed (x :: x :: l) r
  | diff {x y l r} : x ≠ y → Collapsed (y :: l) r → Collapsed (x :: y :: l) (x :: r)

/-- The history manager throws nothing but `std::exception`s. -/
def _root_.Xeus.HistoryManager.StdOnly (M : HistoryManager) : Prop :=
  (∀ h n r o k, M.tail h n r o ≠ .exc (.foreign k)) ∧ (∀ h s a b r o k, M.range h s a b r o ≠ .exc (.foreign k)) ∧
  ∀ h p r o n u k, M.search h p r o n u ≠ .exc (.foreign k)

/-! ## Globs -/

/-- Neither carriage return nor line feed. -/
def NotEol (c : UInt8) : Prop := c ≠ 10 ∧ c ≠ 13

instance (c : UInt8) : Decidable (NotEol c) := inferInstanceAs (Decidable (_ ∧ _))

/-- Glob matching of a whole text: `*` any sequence, `?` any single byte (neither crosses a line end), every
other byte itself. -/
inductive Glob : Str → Str → Prop
  | nil : Glob [] []
  | star {p s t} : (∀ c ∈ s, NotEol c) → Glob p t → Glob (42 :: p) (s ++ t)
  | quest {p c t} : NotEol c → Glob p t → Glob (63 :: p) (c :: t)
  | chr {p c t} : c ≠ 42 → c ≠ 63 → Glob p t → Glob (c :: p) (c :: t)

/-- The pattern matches a part of the text. -/
def GlobIn (p s : Str) : Prop := ∃ a b c, s = a ++ b ++ c ∧ Glob p b

/-! ## What is assumed of `std::regex` (ECMAScript syntax, "C" locale) -/

/-- The part of the syntax that matters here. -/
inductive Tok where
  /-- an ordinary character -/
  | ord (c : UInt8)
  /-- an escaped punctuation or white space character -/
  | esc (c : UInt8)
  /-- `.` -/
  | any
  /-- `.*` -/
  | anyStar
  deriving DecidableEq

/-- The syntax characters `^ $ \ . * + ? ( ) [ ] { } |`. -/
def syntaxChars : Str := [94, 36, 92, 46, 42, 43, 63, 40, 41, 91, 93, 123, 125, 124]

/-- Punctuation and white space that may be escaped: `- [ ] { } ( ) + . , ^ $ | #` and white space. -/
def escapable : Str := [45, 91, 93, 123, 125, 40, 41, 43, 46, 44, 94, 36, 124, 35, 32, 9, 10, 11, 12, 13]

def Tok.Valid : Tok → Prop
  | .ord c => c ∉ syntaxChars ∧ c ≠ 0
  | .esc c => c ∈ escapable
  | .any => True
  | .anyStar => True

def Tok.text : Tok → Str
  | .ord c => [c]
  | .esc c => [92, c]
  | .any => [46]
  | .anyStar => [46, 42]

/-- ECMAScript semantics of a sequence of these. -/
inductive RxMatch : List Tok → Str → Prop
  | nil : RxMatch [] []
  | ord {c ts t} : RxMatch ts t → RxMatch (.ord c :: ts) (c :: t)
  | esc {c ts t} : RxMatch ts t → RxMatch (.esc c :: ts) (c :: t)
  | any {c ts t} : NotEol c → RxMatch ts t → RxMatch (.any :: ts) (c :: t)
  | star {s ts t} : (∀ c ∈ s, NotEol c) → RxMatch ts t → RxMatch (.anyStar :: ts) (s ++ t)

/-- Laws of `std::regex` on this part of the syntax. -/
structure LawfulRegex (R : RegexLib) : Prop where
  compile : ∀ ts : List Tok, (∀ t ∈ ts, t.Valid) → ∃ f, R.compile (ts.flatMap Tok.text) = .ok f ∧
    ∀ s, f s = true ↔ ∃ a b c, s = a ++ b ++ c ∧ RxMatch ts b
  trailing : ∀ ts : List Tok, (∀ t ∈ ts, t.Valid) →
    R.compile (ts.flatMap Tok.text ++ [92]) = .exc .regexError
  total : ∀ s, (∃ f, R.compile s = .ok f) ∨ R.compile s = .exc .regexError

end Xeus.Spec
