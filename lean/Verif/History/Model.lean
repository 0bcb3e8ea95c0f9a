import Verif.Json

/-!
# History manager: the model

Models src/xhistory_manager.cpp and src/xin_memory_history_manager.cpp.
-/

namespace Xeus

/-- One stored entry, `std::array<std::string, 4>` (src/xin_memory_history_manager.hpp:30). -/
structure HEntry where
  session : Str
  line : Str
  input : Str
  output : Str
  deriving DecidableEq, Repr

/-- `m_history`, a `std::list<entry>` in storage order (src/xin_memory_history_manager.hpp:31, 50). -/
abbrev Hist := List HEntry

/-- `store_inputs_impl` (src/xin_memory_history_manager.cpp:35-41); the kernel calls it with the default
empty output (include/xeus/xhistory_manager.hpp:38-41). -/
def storeInputs (h : Hist) (session line : Int) (input output : Str) : Hist :=
  h ++ [⟨intToString session, intToString line, input, output⟩]

/-- Conversion of an entry to JSON: all four strings when `output`, else `make_short_entry`
(src/xin_memory_history_manager.cpp:43-47).  As in the code, entries are first projected
(`projEntry`), then compared and converted. -/
def projEntry (output : Bool) (e : HEntry) : List Str :=
  if output then [e.session, e.line, e.input, e.output] else [e.session, e.line, e.input]

/-- `nl::json` from a `std::list<std::array<std::string, _>>`. -/
def entriesJson (l : List (List Str)) : Json := .arr (l.map fun e => .arr (e.map .str))

/-- `static_cast<int>(m_history.size())`. -/
def histSize (h : Hist) : Int := wrap32 h.length

/-- A successful reply (src/xin_memory_history_manager.cpp:62/71, 74). -/
def histReply (l : List (List Str)) : Json :=
  (Json.put .null (lit "history") (entriesJson l)).put (lit "status") (.str (lit "ok"))

/-- `std::next(it, n)` from the beginning of a list of length `len`: the position, UB outside. -/
def nextPos (len : Nat) (n : Int) : Res Nat :=
  if 0 ≤ n ∧ n ≤ len then .ok n.toNat else .ub "std::next outside of the history list"

/-- `int` subtraction and addition: signed overflow is undefined. -/
def intSub (a b : Int) : Res Int :=
  if InInt (a - b) then .ok (a - b) else .ub "signed integer overflow"

def intAdd (a b : Int) : Res Int :=
  if InInt (a + b) then .ok (a + b) else .ub "signed integer overflow"

/-- `get_tail_impl` (src/xin_memory_history_manager.cpp:49-76): copy the first `count` entries of the
reversed list through a `front_inserter`. -/
def getTail (h : Hist) (n : Int) (_raw output : Bool) : Res Json := do
  let count := min n (histSize h)
  let stop ← nextPos h.length count
  let history := (h.reverse.take stop).foldl (fun acc e => projEntry output e :: acc) []
  return histReply history

/-- `get_range_impl` (src/xin_memory_history_manager.cpp:78-118).  The second assignment to `ename`
overwrites the first (lines 90-91). -/
def getRange (h : Hist) (_session start stop : Int) (_raw output : Bool) : Res Json :=
  if start > stop ∨ start > histSize h then
    .ok (((Json.put .null (lit "status") (.str (lit "error"))).put (lit "ename")
        (.str (lit "history_request_error"))).put (lit "ename")
        (.str (lit "get_range: start is too high given stop or current history")))
  else do
    let count ← intSub (min stop (histSize h)) start
    let first ← nextPos h.length start
    if output then do
      -- copy_n of `count` entries: UB if they are not there
      let last ← nextPos h.length (start + count)
      return histReply (((h.drop first).take (last - first)).map (projEntry true))
    else do
      let stop ← intAdd start count
      let last ← nextPos h.length stop
      return histReply (((h.drop first).take (last - first)).map (projEntry false))

/-! ## Search -/

/-- `std::regex` as a parameter: compiling a text gives a search predicate on C strings (the text up to the
first NUL byte), or throws `std::regex_error`. -/
structure RegexLib where
  compile : Str → Res (Str → Bool)

/-- White space of `\s` in the "C" locale. -/
def isSpaceChr (c : UInt8) : Bool := c == 32 || (9 ≤ c && c ≤ 13)

/-- The character class `[-[\]{}()+.,\^$|#\s]` (src/xin_memory_history_manager.cpp:160). -/
def isSpecialChr (c : UInt8) : Bool :=
  c == 45 || c == 91 || c == 93 || c == 123 || c == 125 || c == 40 || c == 41 || c == 43 || c == 46 ||
  c == 44 || c == 94 || c == 36 || c == 124 || c == 35 || isSpaceChr c

/-- `regex_replace(pattern, special_chars, R"(\$&)")` (src/xin_memory_history_manager.cpp:161). -/
def sanitize (p : Str) : Str := p.flatMap fun c => if isSpecialChr c then [92, c] else [c]

/-- The two replacements of `?` by `.` and `*` by `.*` (src/xin_memory_history_manager.cpp:164). -/
def globToRegex (s : Str) : Str :=
  (s.flatMap fun c => if c = 63 then [46] else [c]).flatMap fun c => if c = 42 then [46, 42] else [c]

/-- `c_str()`: a C string ends at the first NUL byte. -/
def cStr (s : Str) : Str := s.takeWhile (· != 0)

/-- `std::unique` followed by `erase` (src/xin_memory_history_manager.cpp:140-141): an element is kept when
it differs from the last element kept. -/
def uniqueLoop {α : Type} [DecidableEq α] (last : α) : List α → List α
  | [] => []
  | x :: xs => if x = last then uniqueLoop last xs else x :: uniqueLoop x xs

def stdUnique {α : Type} [DecidableEq α] : List α → List α
  | [] => []
  | x :: xs => x :: uniqueLoop x xs

/-- `clean_history` (src/xin_memory_history_manager.cpp:135-149). -/
def cleanHistory {α : Type} [DecidableEq α] (l : List α) (n : Int) (unique : Bool) : Res (List α) := do
  let l := if unique then stdUnique l else l
  let nbErase ← intSub (wrap32 l.length) n
  if nbErase > 0 then do
    let k ← nextPos l.length nbErase
    return l.drop k
  else return l

/-- `search_impl` (src/xin_memory_history_manager.cpp:151-192). -/
def search (R : RegexLib) (h : Hist) (pattern : Str) (_raw output : Bool) (n : Int) (unique : Bool) :
    Res Json := do
  let regexPattern := globToRegex (sanitize pattern)
  let regex ← R.compile regexPattern
  let found := (h.filter fun e => regex (cStr e.input)).map (projEntry output)
  let history ← cleanHistory found n unique
  return histReply history

/-! ## Requests -/

/-- An object of a class derived from `xhistory_manager` (include/xeus/xhistory_manager.hpp:49-58): what its functions answer when
`store_inputs_impl` has been called for the entries of the list, in this order.  `store_inputs_impl` is taken to return; nobody calls
`configure`. -/
structure HistoryManager where
  tail : Hist → Int → Bool → Bool → Res Json
  range : Hist → Int → Int → Int → Bool → Bool → Res Json
  search : Hist → Str → Bool → Bool → Int → Bool → Res Json

/-- `make_in_memory_history_manager` (src/xhistory_manager.cpp:94-97). -/
def inMemory (R : RegexLib) : HistoryManager := ⟨getTail, getRange, search R⟩

/-- `process_request` (src/xhistory_manager.cpp:39-77). -/
def historyRequest (M : HistoryManager) (h : Hist) (content : Json) : Res Json := do
  let access ← content.value (lit "hist_access_type") Json.getStr (lit "tail")
  let history ← (if access = lit "tail" then do
      let n ← content.value (lit "n") Json.getInt 10
      let raw ← content.value (lit "raw") Json.getBool true
      let output ← content.value (lit "output") Json.getBool false
      M.tail h n raw output
    else .ok .null : Res Json)
  let history ← (if access = lit "search" then do
      let pattern ← content.value (lit "pattern") Json.getStr (lit "*")
      let raw ← content.value (lit "raw") Json.getBool true
      let output ← content.value (lit "output") Json.getBool false
      let n ← content.value (lit "n") Json.getInt 10
      let unique ← content.value (lit "unique") Json.getBool false
      M.search h pattern raw output n unique
    else .ok history : Res Json)
  if access = lit "range" then do
    let session ← content.value (lit "session") Json.getInt 0
    let start ← content.value (lit "start") Json.getInt 1
    let stop ← content.value (lit "stop") Json.getInt 10
    let raw ← content.value (lit "raw") Json.getBool true
    let output ← content.value (lit "output") Json.getBool false
    M.range h session start stop raw output
  else return history

end Xeus
