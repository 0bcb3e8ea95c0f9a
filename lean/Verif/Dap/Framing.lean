import Verif.Digits

/-!
# The debug adapter's byte stream: the model

Models `xdap_tcp_client::handle_tcp_socket` and `append_tcp_message` (src/xdap_tcp_client.cpp:255-322).

What arrives on the stream socket is a list of chunks.  ZeroMQ delivers each chunk as two parts, the peer's
identity, which the code discards (line 316), and the bytes; only the bytes are kept here (both parts: `Verif/Dap/Peers.lean`).  The list
holds everything that will ever arrive: running out of chunks means waiting for ever.
-/

namespace Xeus

/-- `xdap_tcp_client::HEADER` and `SEPARATOR` (include/xeus/xdap_tcp_client.hpp:49-52). -/
def dapHeader : Str := lit "Content-Length: "
def dapSeparator : Str := lit "\r\n\r\n"

/-- First occurrence of `pat` in `s`, counting positions from `i`. -/
def findAux (pat : Str) : Str → Nat → Option Nat
  | [], i => if pat = [] then some i else none
  | c :: s, i => if pat.isPrefixOf (c :: s) then some i else findAux pat s (i + 1)

/-- `s.find(pat, pos)`; `none` is `npos`. -/
def findFrom (s pat : Str) (pos : Nat) : Option Nat :=
  if pos ≤ s.length then findAux pat (s.drop pos) pos else none

/-- `s.substr(pos, n)` for `pos ≤ s.size()`. -/
def substr (s : Str) (pos n : Nat) : Str := (s.drop pos).take n

/-- `isspace` in the C locale. -/
def isSpace (c : UInt8) : Bool := c == 32 || (9 ≤ c && c ≤ 13)

/-- 2^64. -/
def two64 : Nat := 18446744073709551616

/-- The number at the start of a text (`strtoull` after the sign). -/
def stoullDigits (neg : Bool) (s : Str) : Res Nat :=
  let ds := s.takeWhile isDigit
  if ds = [] then .exc .invalidArgument
  else if two64 ≤ digitsVal 0 ds then .exc .outOfRange
  else .ok (if neg then (two64 - digitsVal 0 ds) % two64 else digitsVal 0 ds)

/-- `std::stoull`: leading white space and one sign are skipped, what follows the digits is ignored; a minus sign
negates modulo 2^64. -/
def stoull (s : Str) : Res Nat :=
  match s.dropWhile isSpace with
  | c :: r =>
    if c = 45 then stoullDigits true r
    else if c = 43 then stoullDigits false r
    else stoullDigits false (c :: r)
  | [] => .exc .invalidArgument

/-- `while (pos == npos) { append_tcp_message(buffer); pos = buffer.find(pat, hint); }`
(src/xdap_tcp_client.cpp:269-273 and 277-281), entered with the position `pos`. -/
def awaitFind (pat : Str) (hint : Nat) : Option Nat → Str → List Str → Option (Nat × Str × List Str)
  | some p, buf, cs => some (p, buf, cs)
  | none, _, [] => none
  | none, buf, c :: cs => awaitFind pat hint (findFrom (buf ++ c) pat hint) (buf ++ c) cs

/-- `while (buffer.size() - msg_pos < msg_size) append_tcp_message(buffer);` (src/xdap_tcp_client.cpp:287-290). -/
def awaitSize (pos size : Nat) : Str → List Str → Option (Str × List Str)
  | buf, [] => if buf.length - pos < size then none else some (buf, [])
  | buf, c :: cs => if buf.length - pos < size then awaitSize pos size (buf ++ c) cs else some (buf, c :: cs)

/-- How `handle_tcp_socket` ends: with the queue and the chunks not read, also after an exception. -/
inductive Read where
  | got (q cs : List Str)
  | thrown (e : Exc) (q cs : List Str)
  /-- waiting for ever for more bytes -/
  | blocked
  /-- more iterations than bytes; never happens, see `handleTcp_counter` -/
  | endless
  deriving DecidableEq, Repr

/-- One iteration of the outer loop (src/xdap_tcp_client.cpp:267-309), starting with `header_pos` and `hint`;
`next` is the rest of the loop, given the new `header_pos`, `hint`, buffer, chunks and queue. -/
def readIter (next : Option Nat → Nat → Str → List Str → List Str → Read)
    (headerPos : Option Nat) (hint : Nat) (buf : Str) (cs q : List Str) : Read :=
  match awaitFind dapHeader hint headerPos buf cs with
  | none => .blocked
  | some (hp, buf, cs) =>
    match awaitFind dapSeparator (hp + 16) (findFrom buf dapSeparator (hp + 16)) buf cs with
    | none => .blocked
    | some (sp, buf, cs) =>
      match stoull (substr buf (hp + 16) sp) with
      | .ok size =>
        match awaitSize (sp + 4) size buf cs with
        | none => .blocked
        | some (buf, cs) =>
          if buf.length - (sp + 4) = size then .got (q ++ [buf.drop (sp + 4)]) cs
          else next (findFrom buf dapHeader (sp + 4 + size)) (sp + 4 + size) buf cs
            (q ++ [substr buf (sp + 4) size])
      | .exc e => .thrown e q cs
      | _ => .blocked

/-- The outer loop.  Each iteration moves `hint` forward by at least 20 bytes, so that the loop ends or blocks after
at most as many iterations as there are bytes; the counter never runs out (`handleTcp_counter`). -/
def readLoop : Nat → Option Nat → Nat → Str → List Str → List Str → Read
  | 0, _, _, _, _, _ => .endless
  | n + 1, headerPos, hint, buf, cs, q => readIter (readLoop n) headerPos hint buf cs q

/-- `handle_tcp_socket` (src/xdap_tcp_client.cpp:255-310): the queue afterwards and the chunks not read. -/
def handleTcp (q cs : List Str) : Read :=
  readLoop (cs.flatten.length + 1) none 0 [] cs q

/-- The bytes built by `send_dap_request` (src/xdap_tcp_client.cpp:71-77) and `forward_message`
(src/xdebugger_base.cpp:257-263) for a JSON text. -/
def dapFrame (content : Str) : Str := dapHeader ++ natDigits content.length ++ dapSeparator ++ content

/-- What `handle_control_socket` parses of a request (src/xdap_tcp_client.cpp:230-232).  If the separator is not
found, `pos + SEPARATOR_LENGTH` wraps around to 3; `substr` throws beyond the end. -/
def controlText (raw : Str) : Res Str :=
  let pos := match findFrom raw dapSeparator 0 with
    | some p => p + 4
    | none => 3
  if pos ≤ raw.length then .ok (raw.drop pos) else .exc .outOfRange

end Xeus
