import Verif.Json

/-!
# Wire format and authentication: the model

Models src/xstring_utils.hpp, src/xguid.cpp, src/xauthentication.cpp and src/xmessage.cpp.
-/

namespace Xeus

/-- One ZeroMQ frame (`zmq::message_t`) and a multipart (`zmq::multipart_t`), front first. -/
abbrev Frame := Str
abbrev Multipart := List Frame

/-! ## Hexadecimal strings -/

/-- One lowercase hexadecimal digit, as printed by `std::hex` (src/xstring_utils.hpp:24-28). -/
def hexDigit (n : Nat) : UInt8 := if n < 10 then UInt8.ofNat (48 + n) else UInt8.ofNat (87 + n)

/-- `std::setw(2) << std::setfill('0') << static_cast<int>(b)` under `std::hex`
(src/xstring_utils.hpp:27): a byte is an `unsigned char`, so at most two digits are printed. -/
def hexByte (b : UInt8) : Str := [hexDigit (b.toNat / 16), hexDigit (b.toNat % 16)]

/-- `hex_string` (src/xstring_utils.hpp:20-30). -/
def hexString (bytes : Str) : Str := bytes.flatMap hexByte

/-- `new_xguid` (src/xguid.cpp:33-92) applied to the 16 bytes delivered by the system's UUID source.
`xguid` is a fixed string of capacity 55 (include/xeus/xguid.hpp:29), which 32 characters never exceed. -/
def newXguid (bytes : Str) : Str := hexString bytes

/-! ## Authentication -/

/-- The digests of the scheme table (src/xauthentication.cpp:105-119). -/
inductive Digest where
  | md5 | sha1 | ripemd160 | blake2b512 | blake2s256 | sha224 | sha256 | sha384 | sha512
  deriving DecidableEq, Repr

/-- `EVP_MD_size` of the digests, in bytes (OpenSSL). -/
def Digest.size : Digest → Nat
  | md5 => 16 | sha1 => 20 | ripemd160 => 20 | blake2b512 => 64 | blake2s256 => 32
  | sha224 => 28 | sha256 => 32 | sha384 => 48 | sha512 => 64

/-- OpenSSL's HMAC: an arbitrary function of digest, key and message whose output has the digest's
size.  Nothing else is assumed about it. -/
structure Crypto where
  hmac : Digest → (key : Str) → (msg : Str) → Str
  size : ∀ d k m, (hmac d k m).length = d.size

/-- `xauthentication` objects: `no_xauthentication` or `openssl_xauthentication(evp, key)`
(src/xauthentication.cpp:27-71). -/
inductive Auth where
  | none
  | hmac (d : Digest) (key : Str)
  deriving DecidableEq, Repr

/-- `asevp` (src/xauthentication.cpp:103-121): `std::map::at` throws `std::out_of_range` on an unknown
scheme.  OpenSSL >= 1.1.0 is assumed (blake2 schemes present). -/
def asevp (scheme : Str) : Res Digest :=
  if scheme = lit "hmac-md5" then .ok .md5
  else if scheme = lit "hmac-sha1" then .ok .sha1
  else if scheme = lit "hmac-ripemd160" then .ok .ripemd160
  else if scheme = lit "hmac-blake2b512" then .ok .blake2b512
  else if scheme = lit "hmac-blake2s256" then .ok .blake2s256
  else if scheme = lit "hmac-sha224" then .ok .sha224
  else if scheme = lit "hmac-sha256" then .ok .sha256
  else if scheme = lit "hmac-sha384" then .ok .sha384
  else if scheme = lit "hmac-sha512" then .ok .sha512
  else .exc .outOfRange

/-- `make_xauthentication` (src/xauthentication.cpp:90-101). -/
def makeXauthentication (scheme key : Str) : Res Auth :=
  if scheme = lit "none" then .ok .none
  else do
    let d ← asevp scheme
    return .hmac d key

/-- State of OpenSSL's `HMAC_CTX`: digest and key of the last `HMAC_Init_ex`, bytes absorbed since. -/
structure HmacCtx where
  d : Digest
  key : Str
  absorbed : Str
  deriving DecidableEq, Repr

/-- `HMAC_Init_ex` (used at src/xauthentication.cpp:150, 171). -/
def hmacInit (d : Digest) (key : Str) : HmacCtx := ⟨d, key, []⟩

/-- `HMAC_Update` (src/xauthentication.cpp:152-155, 173-176). -/
def hmacUpdate (c : HmacCtx) (bytes : Str) : HmacCtx := { c with absorbed := c.absorbed ++ bytes }

/-- `HMAC_Final` (src/xauthentication.cpp:158, 179). -/
def hmacFinal (C : Crypto) (c : HmacCtx) : Str := C.hmac c.d c.key c.absorbed

/-- The digest part shared by `sign_impl` and `verify_impl`
(src/xauthentication.cpp:150-161 and 171-182), run by one thread. -/
def hexSig (C : Crypto) (d : Digest) (key : Str) (header parent metadata content : Frame) : Str :=
  let c := hmacInit d key
  let c := hmacUpdate c header
  let c := hmacUpdate c parent
  let c := hmacUpdate c metadata
  let c := hmacUpdate c content
  hexString (hmacFinal C c)

/-- `xauthentication::sign` → `sign_impl` (src/xauthentication.cpp:73-79, 145-163, 188-194). -/
def sign (C : Crypto) (a : Auth) (header parent metadata content : Frame) : Frame :=
  match a with
  | .none => []
  | .hmac d key => hexSig C d key header parent metadata content

/-- `xauthentication::verify` → `verify_impl` (src/xauthentication.cpp:81-88, 165-186, 196-203).
`CRYPTO_memcmp(hex.c_str(), signature.data(), hex.size())` reads `hex.size()` bytes of the signature
frame: beyond the end of a shorter frame (undefined behaviour), and only the prefix of a longer one. -/
def verify (C : Crypto) (a : Auth) (signature header parent metadata content : Frame) : Res Bool :=
  match a with
  | .none => .ok true
  | .hmac d key =>
    let hex := hexSig C d key header parent metadata content
    if signature.length < hex.length then .ub "CRYPTO_memcmp reads past the signature frame"
    else .ok (signature.take hex.length == hex)

/-! ## JSON codec -/

/-- `nl::json::error_handler_t`. -/
inductive ErrH where
  | strict | replace | ignore
  deriving DecidableEq, Repr

/-- `nl::json::parse` and `json::dump(-1, ' ', false, handler)` as used by `parse_zmq_message` and
`write_zmq_message` (src/xmessage.cpp:28-38).  `none` = exception (`parse_error`, `type_error.316`). -/
structure Codec where
  parse : Str → Option Json
  dump : ErrH → Json → Option Str

/-- `parse_zmq_message` (src/xmessage.cpp:28-32). -/
def Codec.parseZmq (K : Codec) (f : Frame) : Res Json :=
  match K.parse f with
  | some j => .ok j
  | none => .exc .parseError

/-- `write_zmq_message` (src/xmessage.cpp:34-38). -/
def Codec.writeZmq (K : Codec) (eh : ErrH) (j : Json) : Res Frame :=
  match K.dump eh j with
  | some s => .ok s
  | none => .exc .typeError

/-! ## Messages -/

/-- `xmessage_base` (include/xeus/xmessage.hpp:27-72). -/
structure Body where
  header : Json
  parent : Json
  metadata : Json
  content : Json
  buffers : List Frame
  deriving DecidableEq, Repr

/-- `xmessage` (include/xeus/xmessage.hpp:74-). -/
structure XMessage where
  ids : List Str
  body : Body
  deriving DecidableEq, Repr

/-- `xpub_message`. -/
structure PubMessage where
  topic : Str
  body : Body
  deriving DecidableEq, Repr

/-- `xmessage_base::DELIMITER` (src/xmessage.cpp:26). -/
def delimiter : Frame := lit "<IDS|MSG>"

/-- `is_delimiter` (src/xmessage.cpp:50-60). -/
def isDelimiter (f : Frame) : Bool := f.length == delimiter.length && f == delimiter

/-- `multipart_t::pop`: undefined behaviour on an empty multipart (cppzmq: `deque::front`). -/
def pop : Multipart → Res (Frame × Multipart)
  | [] => .ub "multipart_t::pop on an empty multipart"
  | f :: r => .ok (f, r)

/-- `xmessage_base::deserialize` (src/xmessage.cpp:62-85). -/
def deserializeBase (C : Crypto) (K : Codec) (a : Auth) (w : Multipart) : Res Body := do
  let (signature, w) ← pop w
  let (header, w) ← pop w
  let (parent, w) ← pop w
  let (metadata, w) ← pop w
  let (content, w) ← pop w
  let h ← K.parseZmq header
  let p ← K.parseZmq parent
  let m ← K.parseZmq metadata
  let c ← K.parseZmq content
  let good ← verify C a signature header parent metadata content
  if good then return ⟨h, p, m, c, w⟩
  else .exc (.runtime "Signatures don't match")

/-- `xmessage_base::serialize` (src/xmessage.cpp:87-111): the frames appended to the multipart. -/
def serializeBase (C : Crypto) (K : Codec) (a : Auth) (eh : ErrH) (b : Body) : Res Multipart := do
  let header ← K.writeZmq eh b.header
  let parent ← K.writeZmq eh b.parent
  let metadata ← K.writeZmq eh b.metadata
  let content ← K.writeZmq eh b.content
  let signature := sign C a header parent metadata content
  return signature :: header :: parent :: metadata :: content :: b.buffers

/-- The identity loop of `xmessage::deserialize` (src/xmessage.cpp:157-162): `frame` is the frame popped
last, the list is what remains in the multipart; returns the identities and what remains. -/
def idLoop (ids : List Str) (frame : Frame) : Multipart → List Str × Multipart
  | [] => (ids, [])
  | f :: w => if isDelimiter frame then (ids, f :: w) else idLoop (ids ++ [frame]) f w

/-- `xmessage::deserialize` (src/xmessage.cpp:153-171). -/
def deserialize (C : Crypto) (K : Codec) (a : Auth) (w : Multipart) : Res XMessage := do
  let (frame, w) ← pop w
  let r := idLoop [] frame w
  if r.2.isEmpty then .exc (.runtime "Delimiter not present in message")
  else do
    let b ← deserializeBase C K a r.2
    return ⟨r.1, b⟩

/-- `xmessage::serialize` (src/xmessage.cpp:173-183). -/
def serialize (C : Crypto) (K : Codec) (a : Auth) (eh : ErrH) (m : XMessage) : Res Multipart := do
  let b ← serializeBase C K a eh m.body
  return m.ids ++ delimiter :: b

/-- `xpub_message::deserialize` (src/xmessage.cpp:205-211): the second frame is popped unchecked. -/
def deserializePub (C : Crypto) (K : Codec) (a : Auth) (w : Multipart) : Res PubMessage := do
  let (topic, w) ← pop w
  let (_, w) ← pop w
  let b ← deserializeBase C K a w
  return ⟨topic, b⟩

/-- `xpub_message::serialize` (src/xmessage.cpp:213-220). -/
def serializePub (C : Crypto) (K : Codec) (a : Auth) (eh : ErrH) (m : PubMessage) : Res Multipart := do
  let b ← serializeBase C K a eh m.body
  return m.topic :: delimiter :: b

end Xeus
