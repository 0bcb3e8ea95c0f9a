import Verif.Dap.FramingSpec
import Verif.Dap.Peers

/-!
# Peers of a stream socket: specification
-/

namespace Xeus.Spec

open Xeus

/-- A piece of bytes from a peer. -/
structure Piece where
  peer : Str
  bytes : Str
  deriving DecidableEq, Repr

/-- What the socket delivers for it. -/
def partsOf (as : List Piece) : List Str := as.flatMap fun a => [a.peer, a.bytes]

/-- All bytes, in the order of arrival. -/
def bytesOf (as : List Piece) : Str := (as.map Piece.bytes).flatten

/-- The bytes of one peer. -/
def bytesFrom (id : Str) : List Piece → Str
  | [] => []
  | a :: r => if a.peer = id then a.bytes ++ bytesFrom id r else bytesFrom id r

/-- Successive reads into the same queue. -/
inductive ReadsP : List Str → List Str → List Str → List Str → Prop
  | refl {q ps} : ReadsP q ps q ps
  | step {q ps q₁ ps₁ q₂ ps₂} : handleTcpP q ps = .got q₁ ps₁ → ReadsP q₁ ps₁ q₂ ps₂ → ReadsP q ps q₂ ps₂

end Xeus.Spec
