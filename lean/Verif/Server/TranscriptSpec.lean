import Verif.Server.Spec
import Verif.Server.Split
import Verif.Server.Duo
import Verif.KernelConc.Spec

/-!
# What a running server sends: specifications
-/

namespace Xeus.Spec

open Xeus

/-- The messages a thread received in order to handle them. -/
def tookBy (t : Chan) : List Act → List Multipart
  | [] => []
  | .took t' q :: r => if t' = t then q :: tookBy t r else tookBy t r
  | _ :: r => tookBy t r

/-- What all threads did, in order. -/
def allEvents : List Act → List Ev
  | [] => []
  | .did _ e :: r => e :: allEvents r
  | _ :: r => allEvents r

/-- The events are those of handling the messages one after the other: a block for each accepted one, nothing for the
refused ones; for the last message there may be only the beginning of a block. -/
inductive Progress (env : Env) : List (Multipart × Chan) → List Ev → Prop
  | whole {xs es} : Transcript env xs es → Progress env xs es
  | started {xs es} (q : Multipart) (c : Chan) : Transcript env xs es → Progress env (xs ++ [(q, c)]) es
  | underway {xs es} (q : Multipart) (c : Chan) (m : XMessage) (last : List Ev) : Transcript env xs es →
      Accepted env.C env.J env.auth q m → OpenBlock env m c last → Progress env (xs ++ [(q, c)]) (es ++ last)

/-- What a status notification says, and the header of the message it is about. -/
def statusOf : Ev → Option (Json × Json)
  | .pub _ m _ => if m.body.header.find? (lit "msg_type") = some (.str (lit "status")) then some (m.body.content, m.body.parent) else none
  | _ => none

/-- The content of a status notification. -/
def stateIs (s : String) : Json := .obj [(lit "execution_state", .str (lit s))]

/-- The status notifications, in order. -/
def statusesIn (es : List Ev) : List (Json × Json) := es.filterMap statusOf

/-- The event is published through socket `k`. -/
def throughSocket (k : Chan) : Ev → Bool
  | .pub c _ _ => decide (publishSocket c = k)
  | _ => false

/-- Status notifications alternate: busy about a message, idle about the same message, and so on; the last may be busy. -/
inductive Alternates : List (Json × Json) → Prop
  | nil : Alternates []
  | busy (p : Json) : Alternates [(stateIs "busy", p)]
  | pair (p : Json) {r : List (Json × Json)} : Alternates r → Alternates ((stateIs "busy", p) :: (stateIs "idle", p) :: r)

/-- The message is to be stored in the history: a well-formed execute request that is not silent and does not say otherwise. -/
def Storable (m : XMessage) (e : HEntry) : Prop :=
  IsReq m .execute ∧ ∃ f, execFields m.body.content = some f ∧ f.store = true ∧ f.silent = false ∧
    e = ⟨lit "0", intToString f.line, f.code, []⟩

/-- The messages handled, what was done for them, and the entries of the history: one for each message to be stored that was replied
to, in the same order. -/
inductive Ledger (env : Env) : List (Chan × Multipart) → List Ev → Hist → Prop
  | nil : Ledger env [] [] []
  | stored {hs es l} (c : Chan) (q : Multipart) (m : XMessage) (blk : List Ev) (e : HEntry) : Ledger env hs es l →
      Accepted env.C env.J env.auth q m → Block env m c blk → Storable m e → repliesIn blk ≠ [] →
      Ledger env (hs ++ [(c, q)]) (es ++ blk) (l ++ [e])
  | other {hs es l} (c : Chan) (q : Multipart) (m : XMessage) (blk : List Ev) : Ledger env hs es l →
      Accepted env.C env.J env.auth q m → Block env m c blk → ((∀ e, ¬ Storable m e) ∨ repliesIn blk = []) →
      Ledger env (hs ++ [(c, q)]) (es ++ blk) l
  | refused {hs es l} (c : Chan) (q : Multipart) : Ledger env hs es l → Refused env.C env.J env.auth q →
      Ledger env (hs ++ [(c, q)]) es l

/-- The third list is made of the first two, each in its order. -/
inductive Merge {α : Type} : List α → List α → List α → Prop
  | nil : Merge [] [] []
  | left (x : α) {a b c : List α} : Merge a b c → Merge (x :: a) b (x :: c)
  | right (x : α) {a b c : List α} : Merge a b c → Merge a (x :: b) (x :: c)

/-- As `Ledger`, with a last message that is still being handled: it may already have been stored, but only after its reply. -/
inductive Ongoing (env : Env) : List (Chan × Multipart) → List Ev → Hist → Prop
  | whole {hs es l} : Ledger env hs es l → Ongoing env hs es l
  | unstored {hs es l} (c : Chan) (q : Multipart) (last : List Ev) : Ledger env hs es l → Ongoing env (hs ++ [(c, q)]) (es ++ last) l
  | stored {hs es l} (c : Chan) (q : Multipart) (m : XMessage) (last : List Ev) (e : HEntry) : Ledger env hs es l →
      Accepted env.C env.J env.auth q m → Storable m e → repliesIn last ≠ [] → Ongoing env (hs ++ [(c, q)]) (es ++ last) (l ++ [e])

/-- The thread of a split server is between two messages. -/
def Between {σ : Type} (s : Duo σ) : Chan → Prop
  | .control => s.kpc ≠ .busy
  | .shell => ∀ r, s.spc ≠ .busy r

end Xeus.Spec
