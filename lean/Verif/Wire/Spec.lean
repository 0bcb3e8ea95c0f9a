import Verif.Wire.Model
import Verif.Utf8.Spec

/-!
# Wire format and authentication: specifications

Stated without the model's helper functions (only its data types and the external `Crypto`/`Codec`).
-/

namespace Xeus.Spec

open Xeus

/-- All strings of a JSON value (keys included) are well-formed UTF-8. -/
inductive JsonUtf8 : Json → Prop
  | null : JsonUtf8 .null
  | bool {b} : JsonUtf8 (.bool b)
  | int {i} : JsonUtf8 (.int i)
  | float {b} : JsonUtf8 (.float b)
  | str {s} : Utf8 s → JsonUtf8 (.str s)
  | arr {xs} : (∀ x ∈ xs, JsonUtf8 x) → JsonUtf8 (.arr xs)
  | obj {kvs : List (Str × Json)} : (∀ kv ∈ kvs, Utf8 kv.1) → (∀ kv ∈ kvs, JsonUtf8 kv.2) →
      JsonUtf8 (.obj kvs)

/-- What is assumed of nlohmann::json's parser and printer. -/
structure LawfulCodec (K : Codec) : Prop where
  /-- `parse` only produces values `nlohmann::json` can hold, with valid UTF-8 strings. -/
  parse_wf : ∀ s j, K.parse s = some j → j.canon = true ∧ JsonUtf8 j
  /-- printing valid UTF-8 never fails and parses back -/
  roundtrip : ∀ eh j, j.canon = true → JsonUtf8 j → ∃ s, K.dump eh j = some s ∧ K.parse s = some j
  /-- the strict handler throws exactly on invalid UTF-8 -/
  dump_strict : ∀ j, ¬ JsonUtf8 j → K.dump .strict j = none
  /-- the other handlers never throw -/
  dump_lenient : ∀ eh j, eh ≠ .strict → (K.dump eh j).isSome = true
  /-- the word `stop` is not a JSON text -/
  parse_stop : K.parse (lit "stop") = none

/-- A message whose JSON parts can be represented on the wire. -/
structure Representable (b : Body) : Prop where
  header : b.header.canon = true ∧ JsonUtf8 b.header
  parent : b.parent.canon = true ∧ JsonUtf8 b.parent
  metadata : b.metadata.canon = true ∧ JsonUtf8 b.metadata
  content : b.content.canon = true ∧ JsonUtf8 b.content

/-! ## Hexadecimal -/

/-- Value of a lowercase hexadecimal digit. -/
def hexVal (c : UInt8) : Option Nat :=
  if 48 ≤ c ∧ c ≤ 57 then some (c.toNat - 48)
  else if 97 ≤ c ∧ c ≤ 102 then some (c.toNat - 87)
  else none

/-- Decoder of hexadecimal text (`none` on odd length or foreign characters). -/
def unhex : Str → Option Str
  | [] => some []
  | [_] => none
  | a :: b :: r => do
    let x ← hexVal a
    let y ← hexVal b
    let t ← unhex r
    return UInt8.ofNat (16 * x + y) :: t

/-! ## Acceptance of a multipart -/

/-- The text `<IDS|MSG>`. -/
def delim : Frame := [60, 73, 68, 83, 124, 77, 83, 71, 62]

/-- The signature expected for four JSON frames: the hexadecimal text that decodes to the HMAC of
their concatenation. -/
def IsSignature (C : Crypto) (d : Digest) (key : Str) (sig h p m c : Frame) : Prop :=
  unhex sig = some (C.hmac d key (h ++ p ++ m ++ c))

/-- Good signature frame: anything without authentication, otherwise a frame *beginning with* the
expected signature. -/
def SigGood (C : Crypto) (a : Auth) (sig h p m c : Frame) : Prop :=
  match a with
  | .none => True
  | .hmac d key => ∃ s t, sig = s ++ t ∧ IsSignature C d key s h p m c

/-- Signature frame shorter than the expected signature text. -/
def SigShort (a : Auth) (sig : Frame) : Prop :=
  match a with
  | .none => False
  | .hmac d _ => sig.length < 2 * d.size

/-- `w` is split at the first delimiter into identities and the frames that follow. -/
def SplitAt (w : Multipart) (ids : List Str) (rest : Multipart) : Prop :=
  w = ids ++ delim :: rest ∧ delim ∉ ids

/-- The multipart is a well-formed, correctly signed encoding of `m`. -/
def Accepted (C : Crypto) (K : Codec) (a : Auth) (w : Multipart) (m : XMessage) : Prop :=
  ∃ sig h p md c,
    SplitAt w m.ids (sig :: h :: p :: md :: c :: m.body.buffers) ∧
    K.parse h = some m.body.header ∧ K.parse p = some m.body.parent ∧
    K.parse md = some m.body.metadata ∧ K.parse c = some m.body.content ∧
    SigGood C a sig h p md c

/-- The multipart makes decoding undefined: no frame at all; one to four frames after the delimiter;
or four good JSON frames with a signature frame that is too short. -/
def Undefined (K : Codec) (a : Auth) (w : Multipart) : Prop :=
  w = [] ∨
  (∃ ids rest, SplitAt w ids rest ∧ 0 < rest.length ∧ rest.length < 5) ∨
  (∃ ids sig h p md c bufs, SplitAt w ids (sig :: h :: p :: md :: c :: bufs) ∧
    (K.parse h).isSome ∧ (K.parse p).isSome ∧ (K.parse md).isSome ∧ (K.parse c).isSome ∧
    SigShort a sig)

/-- The multipart is refused: it is not empty and either has no delimiter, or the delimiter is the
last frame, or one of the four JSON frames is not JSON, or the signature (long enough) is wrong. -/
def Refused (C : Crypto) (K : Codec) (a : Auth) (w : Multipart) : Prop :=
  (w ≠ [] ∧ delim ∉ w) ∨
  (∃ ids, SplitAt w ids []) ∨
  (∃ ids sig h p md c bufs, SplitAt w ids (sig :: h :: p :: md :: c :: bufs) ∧
    (K.parse h = none ∨ K.parse p = none ∨ K.parse md = none ∨ K.parse c = none ∨
      (¬ SigShort a sig ∧ ¬ SigGood C a sig h p md c)))

end Xeus.Spec
