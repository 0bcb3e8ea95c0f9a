import Verif.Kernel.Model
import Verif.Utf8.Model

/-!
# Logging: the model

Models src/xlogger.cpp, src/xlogger_impl.cpp:25-44, 108-224 and the choice of the logger in `xkernel::init`
(src/xkernel.cpp:131-134).  What is written is recorded as a list of writes to the console or to a file; opening a file
does not fail.  If the text of a message cannot be produced, the console logger has already written the first line (the
order of evaluation of C++17; before C++17 the compiler may choose).
-/

namespace Xeus.Log

open Xeus

/-- `xlogger::level` (include/xeus/xlogger.hpp:44-49). -/
inductive Level where
  | msgType | content | full
  deriving DecidableEq, Repr

/-- Where a logger writes. -/
inductive Sink where
  | console
  | file (name : Str)
  deriving DecidableEq, Repr

/-- `xlogger_console`, `xlogger_file`. -/
structure Logger where
  level : Level
  sink : Sink
  deriving DecidableEq, Repr

/-- A logger, the one after it, and so on; the last one is followed by `xlogger_nolog`, as is the empty chain. -/
abbrev Chain := List Logger

/-- A piece of text written somewhere. -/
abbrev Write := Sink × Str

/-- What is logged of a message (src/xlogger_impl.cpp:163-181). -/
def record (level : Level) (b : Body) : Res Json := do
  let msgType ← b.header.value (lit "msg_type") Json.getStr []
  let message := Json.null.put (lit "msg_type") (.str msgType)
  return match level with
    | .msgType => message
    | .content => message.put (lit "content") b.content
    | .full => (((message.put (lit "header") b.header).put (lit "parent_header") b.parent).put (lit "metadata") b.metadata).put
        (lit "content") b.content

/-- `log_message_impl` of the two loggers (src/xlogger_impl.cpp:196-201, 215-224); `dump4` is `dump(4)`. -/
def writeRecord (dump4 : Json → Option Str) (sink : Sink) (info : Str) (message : Json) : Res Unit × List Write :=
  match sink with
  | .console => match dump4 message with
    | some t => (.ok (), [(.console, info ++ lit "\n" ++ t ++ lit "\n")])
    | none => (.exc .typeError, [(.console, info ++ lit "\n")])
  | .file name => match dump4 ((Json.null.put (lit "info") (.str info)).put (lit "message") message) with
    | some t => (.ok (), [(.file name, t ++ lit "\n")])
    | none => (.exc .typeError, [])

/-- `xlogger::log_message` (src/xlogger_impl.cpp:157-185): the result, and what is written. -/
def logMessage (dump4 : Json → Option Str) (info : Str) (b : Body) : Chain → Res Unit × List Write
  | [] => (.ok (), [])
  | l :: rest =>
    match record l.level b with
    | .ok message =>
      match writeRecord dump4 l.sink info message with
      | (.ok (), ws) => ((logMessage dump4 info b rest).1, ws ++ (logMessage dump4 info b rest).2)
      | (r, ws) => (r, ws)
    | .exc e => (.exc e, [])
    | .ub why => (.ub why, [])
    | .hang => (.hang, [])

/-- `channel_str` (src/xlogger_impl.cpp:53). -/
def channelStr : Option Chan → Str
  | some .shell => lit "shell"
  | some .control => lit "control"
  | none => lit "stdin"

/-- `identities()[0]`, replaced if it is not valid UTF-8 (src/xlogger_impl.cpp:122-125, 135-138). -/
def shownId (ids : List Str) : Res Str :=
  match ids with
  | [] => .ub "first of no identities"
  | id :: _ => do
    let valid ← isUtf8Valid id
    return if valid then id else lit "invalid UTF8"

/-- The line that introduces a message. -/
def infoOf : LogEv → Res Str
  | .received c m => do
    let id ← shownId m.ids
    return lit "XEUS: received message on " ++ channelStr c ++ lit " - " ++ id
  | .sent c m => do
    let id ← shownId m.ids
    return lit "XEUS: sent message on " ++ channelStr c ++ lit " - " ++ id
  | .iopub m => .ok (lit "XEUS: sent message on iopub - " ++ m.topic)

def bodyOf : LogEv → Body
  | .received _ m => m.body
  | .sent _ m => m.body
  | .iopub m => m.body

/-- `log_received_message`, `log_sent_message`, `log_iopub_message` (src/xlogger_impl.cpp:120-155). -/
def logEvent (dump4 : Json → Option Str) (chain : Chain) (e : LogEv) : Res Unit × List Write :=
  match chain with
  | [] => (.ok (), [])
  | l :: rest =>
    match infoOf e with
    | .ok info => logMessage dump4 info (bodyOf e) (l :: rest)
    | .exc x => (.exc x, [])
    | .ub why => (.ub why, [])
    | .hang => (.hang, [])

/-- The logger a kernel uses (src/xkernel.cpp:131-134): `given` is the one handed over, `set` tells whether the variable
`XEUS_LOG` is set. -/
def chosen (given : Option Chain) (set : Bool) : Chain :=
  match given with
  | some c => if set then c else []
  | none => []

end Xeus.Log
