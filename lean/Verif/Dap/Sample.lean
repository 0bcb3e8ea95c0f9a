import Verif.Dap.Model
import Verif.Kernel.Sample
import Verif.Dap.FramingProps

/-! # A concrete debug adapter client, for the examples -/

namespace Xeus

open Spec

deriving instance DecidableEq for Dap

/-- A client whose event handler forwards every event and whose callback counts them. -/
def sampleClient : Client Nat where
  env := sampleEnv
  parallel := true
  onEvent := fun j => .call (.forward j) fun _ => .ret ()
  callback := fun _ n => (.ok (), n + 1)

/-- A state with messages queued and chunks to come. -/
def sampleDap (queue tcpIn : List Str) (due : Bool) : Dap Nat :=
  { Dap.initial 0 tcpIn [] [] with queue := queue, replyDue := due }

/-- `cond` of a `wait_for_message`: the messages with a given `n`. -/
def wantN (n : Int) (j : Json) : Res Bool := do
  let v ← j.cidx (lit "n")
  return decide (v = .int n)

end Xeus
