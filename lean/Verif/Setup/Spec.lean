import Verif.Setup.Model
import Verif.Fields
import Verif.Digits

/-!
# Setting up a kernel: vocabulary of the properties C65–C67, C70, C75
-/

namespace Xeus.Setup.Spec

open Xeus Xeus.Setup

/-- `s` is the decimal text of `n`: no leading zeros, a sign only if `n` is negative. -/
def Decimal (n : Int) (s : Str) : Prop :=
  ∃ ds, ds ≠ [] ∧ (∀ c ∈ ds, isDigit c = true) ∧ (ds.head? = some 48 → ds = [48]) ∧
    ((0 ≤ n ∧ s = ds ∧ (digitsVal 0 ds : Int) = n) ∨ (n < 0 ∧ s = 45 :: ds ∧ -(digitsVal 0 ds : Int) = n))

/-- The document is an object with this member. -/
def Member (doc : Json) (k : String) (v : Json) : Prop := ∃ kvs, doc = .obj kvs ∧ (lit k, v) ∈ kvs

/-- The `int` a JSON value stands for: itself if it fits, otherwise what is left of it in 32 bits; booleans count as 0
and 1, doubles are rounded towards zero and must then fit. -/
def IntOf (v : Json) (n : Int) : Prop :=
  (∃ i q, v = .int i ∧ InInt n ∧ i = n + 4294967296 * q) ∨ (v = .bool true ∧ n = 1) ∨ (v = .bool false ∧ n = 0) ∨
  (∃ b, v = .float b ∧ Xeus.Spec.IsTrunc b n ∧ InInt n)

/-- The member is a port number, of this decimal text. -/
def PortMember (doc : Json) (k : String) (s : Str) : Prop := ∃ v n, Member doc k v ∧ IntOf v n ∧ Decimal n s

/-- The member is a double that is no `int`. -/
def WildMember (doc : Json) (k : String) : Prop := ∃ b, Member doc k (.float b) ∧ ∀ n, ¬ IntOf (.float b) n

/-- The members of a connection document that are ports. -/
def portNames : List String := ["control_port", "shell_port", "stdin_port", "iopub_port", "hb_port"]

/-- The connection document describes this configuration. -/
structure Describes (doc : Json) (c : Config) : Prop where
  transport : Member doc "transport" (.str c.transport)
  ip : Member doc "ip" (.str c.ip)
  control : PortMember doc "control_port" c.controlPort
  shell : PortMember doc "shell_port" c.shellPort
  stdin : PortMember doc "stdin_port" c.stdinPort
  iopub : PortMember doc "iopub_port" c.iopubPort
  hb : PortMember doc "hb_port" c.hbPort
  auth : (c.scheme ≠ [] ∧ Member doc "signature_scheme" (.str c.scheme) ∧ Member doc "key" (.str c.key)) ∨
    (c.scheme = [] ∧ c.key = [] ∧ (Member doc "signature_scheme" (.str []) ∨ ∀ v, ¬ Member doc "signature_scheme" v))

/-- Numbers are drawn from the range asked for, its ends included. -/
def Draws (w : World) : Prop := ∀ start stop, start ≤ stop → ∀ i, start ≤ w.draw start stop i ∧ w.draw start stop i ≤ stop

/-- End points bound to a numbered port are reported as they are (ZeroMQ does not resolve names or wildcards in them). -/
def Verbatim (w : World) (transport ip : Str) : Prop :=
  ∀ i port last, w.net i (getEndPoint transport ip port) = some last → last = getEndPoint transport ip port

/-- The socket is bound to exactly this port of this address. -/
def BoundTo (s : Socket) (transport ip port : Str) : Prop :=
  s.bound = [getEndPoint transport ip port] ∧ s.last = getEndPoint transport ip port

/-- What starting a socket comes to: a given port is bound, without one the port found in the range for automatic ports
is bound, or nothing is and the port shown is empty. -/
def Started (w : World) (s : Socket) (transport ip given shown : Str) : Prop :=
  (given ≠ [] ∧ shown = given ∧ BoundTo s transport ip given) ∨
  (given = [] ∧ ∃ i, i < 100 ∧ Decimal (w.draw 49152 65536 i) shown ∧ 49152 ≤ w.draw 49152 65536 i ∧
    w.draw 49152 65536 i ≤ 65536 ∧ BoundTo s transport ip shown) ∨
  (given = [] ∧ shown = [] ∧ s = .new ∧
    ∀ i, i < 100 → ∀ port, Decimal (w.draw 49152 65536 i) port → w.net i (getEndPoint transport ip port) = none)

/-- All five sockets of a server were started, and `shown` shows their ports; nothing else differs from `cfg`. -/
structure AllStarted (w : Worlds) (s : Sockets) (cfg shown : Config) : Prop where
  control : Started w.control s.control cfg.transport cfg.ip cfg.controlPort shown.controlPort
  shell : Started w.shell s.shell cfg.transport cfg.ip cfg.shellPort shown.shellPort
  stdin : Started w.stdin s.stdin cfg.transport cfg.ip cfg.stdinPort shown.stdinPort
  iopub : Started w.iopub s.iopub cfg.transport cfg.ip cfg.iopubPort shown.iopubPort
  hb : Started w.hb s.hb cfg.transport cfg.ip cfg.hbPort shown.hbPort
  rest : shown.transport = cfg.transport ∧ shown.ip = cfg.ip ∧ shown.scheme = cfg.scheme ∧ shown.key = cfg.key

/-- A property of all five sockets' surroundings. -/
def Worlds.All (w : Worlds) (p : World → Prop) : Prop := p w.control ∧ p w.shell ∧ p w.stdin ∧ p w.iopub ∧ p w.hb

/-- A property of all five sockets. -/
def Sockets.All (s : Sockets) (p : Socket → Prop) : Prop := p s.control ∧ p s.shell ∧ p s.stdin ∧ p s.iopub ∧ p s.hb

/-- A property of all five ports. -/
def Ports (c : Config) (p : Str → Prop) : Prop :=
  p c.controlPort ∧ p c.shellPort ∧ p c.stdinPort ∧ p c.iopubPort ∧ p c.hbPort

/-- The first interpreter that is not null. -/
def FirstOf (l : List (Option Nat)) (r : Option Nat) : Prop :=
  match r with
  | none => ∀ x ∈ l, x = none
  | some i => ∃ a b, l = a ++ some i :: b ∧ ∀ x ∈ a, x = none

end Xeus.Setup.Spec
