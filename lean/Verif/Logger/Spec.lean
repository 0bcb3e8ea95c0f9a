import Verif.Logger.Model
import Verif.Wire.Spec

/-!
# Logging: vocabulary of C71 and C72
-/

namespace Xeus.Log.Spec

open Xeus Xeus.Spec Xeus.Log

/-- What is assumed of `dump(4)`: the text of a value whose strings are valid UTF-8 is read back as the value, otherwise
it throws. -/
structure LawfulPretty (K : Codec) (dump4 : Json → Option Str) : Prop where
  valid : ∀ j, j.canon = true → JsonUtf8 j → ∃ t, dump4 j = some t ∧ K.parse t = some j
  invalid : ∀ j, ¬ JsonUtf8 j → dump4 j = none

/-- The parts of the message are values `nlohmann::json` can hold. -/
def Holdable (b : Body) : Prop :=
  b.header.canon = true ∧ b.parent.canon = true ∧ b.metadata.canon = true ∧ b.content.canon = true

/-- An object with exactly these members. -/
def ObjectOf (j : Json) (members : List (String × Json)) : Prop :=
  ∃ kvs, j = .obj kvs ∧ Json.sortedKeys kvs = true ∧ ∀ k v, (k, v) ∈ kvs ↔ ∃ m ∈ members, k = lit m.1 ∧ v = m.2

/-- The type of a message: the string in its header, or the empty text if there is none. -/
def TypeOf (b : Body) (t : Str) : Prop :=
  ∃ kvs, b.header = .obj kvs ∧ ((lit "msg_type", Json.str t) ∈ kvs ∨ (t = [] ∧ ∀ v, (lit "msg_type", v) ∉ kvs))

/-- The parts of a message a level shows. -/
def shown (b : Body) (t : Str) : Level → List (String × Json)
  | .msgType => [("msg_type", .str t)]
  | .content => [("msg_type", .str t), ("content", b.content)]
  | .full => [("msg_type", .str t), ("header", b.header), ("parent_header", b.parent), ("metadata", b.metadata),
      ("content", b.content)]

/-- The parts of a message a level shows are valid UTF-8. -/
def ShownUtf8 (b : Body) (t : Str) (l : Level) : Prop := ∀ m ∈ shown b t l, JsonUtf8 m.2

/-- A logger has written its entry: on the console a line and the record, in a file an object of both. -/
def Entry (K : Codec) (info : Str) (b : Body) (t : Str) (l : Logger) (w : Write) : Prop :=
  ∃ r text, ObjectOf r (shown b t l.level) ∧
    match l.sink with
    | .console => w = (.console, info ++ lit "\n" ++ text ++ lit "\n") ∧ K.parse text = some r
    | .file name => w = (.file name, text ++ lit "\n") ∧ ∃ o, K.parse text = some o ∧ ObjectOf o [("info", .str info), ("message", r)]

/-- One entry of each logger, in the order of the chain. -/
inductive Entries (K : Codec) (info : Str) (b : Body) (t : Str) : Chain → List Write → Prop
  | nil : Entries K info b t [] []
  | cons (l : Logger) (c : Chain) (w : Write) (ws : List Write) : Entry K info b t l w → Entries K info b t c ws →
      Entries K info b t (l :: c) (w :: ws)

/-- The logger can log the message. -/
def CanLog (info : Str) (b : Body) (t : Str) (l : Logger) : Prop :=
  ShownUtf8 b t l.level ∧ (∀ name, l.sink = .file name → Utf8 info)

/-- The message an event is about. -/
def messageOf : LogEv → Body
  | .received _ m => m.body
  | .sent _ m => m.body
  | .iopub m => m.body

/-- The line that introduces a message with identity `id`, or of topic `id`. -/
def Introduces (e : LogEv) (info : Str) : Prop :=
  match e with
  | .received c m => ∃ id rest, m.ids = id :: rest ∧ ∃ s, (Utf8 id → s = id) ∧ (¬ Utf8 id → s = lit "invalid UTF8") ∧
      info = lit "XEUS: received message on " ++ (match c with | some .shell => lit "shell" | some .control => lit "control" | none => lit "stdin") ++ lit " - " ++ s
  | .sent c m => ∃ id rest, m.ids = id :: rest ∧ ∃ s, (Utf8 id → s = id) ∧ (¬ Utf8 id → s = lit "invalid UTF8") ∧
      info = lit "XEUS: sent message on " ++ (match c with | some .shell => lit "shell" | some .control => lit "control" | none => lit "stdin") ++ lit " - " ++ s
  | .iopub m => info = lit "XEUS: sent message on iopub - " ++ m.topic

end Xeus.Log.Spec
