import Verif.Wire.Model

/-!
# The publisher and the heartbeat thread

Models `xpublisher::run` (src/xpublisher.cpp:43-70) and `xheartbeat::run` (src/xheartbeat.cpp:39-66), which have the same
form: wait until one of two sockets is ready, pass on one message of the first one, then look at the second one.

Sockets are queues: `inq i` holds the messages sent by source `i` (a thread for the publisher, a client for the heartbeat)
that have not been received yet; those of one source are received in order, the source is chosen freely.  `zmq::poll` looks
at the sockets one after the other, and again if neither is ready.
-/

namespace Xeus

/-- Where the thread is. -/
inductive RelayPc (ι : Type) where
  /-- in `zmq::poll` -/
  | poll
  /-- in `zmq::poll`, having looked at the first socket -/
  | sampled (r0 : Bool)
  /-- `zmq::poll` returned -/
  | ready (r0 r1 : Bool)
  /-- between `recv` and `send` of a message -/
  | hold (i : ι) (m : Multipart) (r1 : Bool)
  /-- at the second `if` -/
  | asked (r1 : Bool)
  /-- between `recv` and `send` of the command -/
  | echo
  /-- `run` returned -/
  | over
  deriving DecidableEq

/-- Such a thread with its sockets. -/
structure Relay (ι : Type) where
  pc : RelayPc ι
  inq : ι → List Multipart
  /-- a command waits on the controller socket -/
  ctl : Bool
  /-- the answer waits for the sender of the command -/
  ack : Bool
  /-- what was ever put into `inq` -/
  given : ι → List Multipart
  /-- what was passed on -/
  passed : List (ι × Multipart)

namespace Relay

variable {ι : Type} [DecidableEq ι]

/-- At the beginning. -/
def init : Relay ι := ⟨.poll, fun _ => [], false, false, fun _ => [], []⟩

/-- Append to the queue of one source. -/
def upd (f : ι → List Multipart) (i : ι) (l : List Multipart) : ι → List Multipart := fun j => if j = i then l else f j

/-- Messages arrive from source `i`. -/
def put (a : Relay ι) (i : ι) (ms : List Multipart) : Relay ι :=
  { a with inq := upd a.inq i (a.inq i ++ ms), given := upd a.given i (a.given i ++ ms) }

/-- Send the command. -/
def command (a : Relay ι) : Relay ι := { a with ctl := true }

/-- Receive the answer. -/
def answered (a : Relay ι) : Relay ι := { a with ack := false }

/-- The steps of the thread. -/
inductive Step : Relay ι → Relay ι → Prop
  | sample0 (a : Relay ι) (r : Bool) : a.pc = .poll → (r = true ↔ ∃ i, a.inq i ≠ []) → Step a { a with pc := .sampled r }
  | sample1 (a : Relay ι) (r0 : Bool) : a.pc = .sampled r0 → (r0 = true ∨ a.ctl = true) →
      Step a { a with pc := .ready r0 a.ctl }
  | none (a : Relay ι) : a.pc = .sampled false → a.ctl = false → Step a { a with pc := .poll }
  | recv (a : Relay ι) (r1 : Bool) (i : ι) (m : Multipart) (r : List Multipart) : a.pc = .ready true r1 → a.inq i = m :: r →
      Step a { a with pc := .hold i m r1, inq := upd a.inq i r }
  | skip (a : Relay ι) (r1 : Bool) : a.pc = .ready false r1 → Step a { a with pc := .asked r1 }
  | send (a : Relay ι) (i : ι) (m : Multipart) (r1 : Bool) : a.pc = .hold i m r1 →
      Step a { a with pc := .asked r1, passed := a.passed ++ [(i, m)] }
  | again (a : Relay ι) : a.pc = .asked false → Step a { a with pc := .poll }
  | recvCtl (a : Relay ι) : a.pc = .asked true → Step a { a with pc := .echo, ctl := false }
  | sendCtl (a : Relay ι) : a.pc = .echo → Step a { a with pc := .over, ack := true }

/-- What was passed on of source `i`. -/
def passedOf (a : Relay ι) (i : ι) : List Multipart := (a.passed.filter fun x => x.1 = i).map Prod.snd

/-- What the thread has in hand of source `i`. -/
def held (a : Relay ι) (i : ι) : List Multipart :=
  match a.pc with
  | .hold j m _ => if j = i then [m] else []
  | _ => []

end Relay

end Xeus
