import Verif.Server.TranscriptSpec

/-!
# What a client gathers about its request: specifications
-/

namespace Xeus.Spec

open Xeus

/-- The publications among some events. -/
def published (es : List Ev) : List Ev := es.filter fun
  | .pub _ _ _ => true
  | _ => false

/-- The publications for one channel. -/
def publishedOn (c : Chan) (es : List Ev) : List Ev := es.filter fun
  | .pub c' _ _ => decide (c' = c)
  | _ => false

/-- The publications that name this header as their parent. -/
def about (h : Json) (es : List Ev) : List Ev := es.filter fun
  | .pub _ m _ => decide (m.body.parent = h)
  | _ => false

/-- The message is accepted and has this header. -/
def HasHeader (env : Env) (h : Json) (q : Multipart) : Prop := ∃ m, Accepted env.C env.J env.auth q m ∧ m.body.header = h

/-- Among messages handled later, one of the other channel that is accepted (and, that channel being the shell channel, asks for a shutdown or an
interruption) comes only after an accepted one of channel `c`. -/
def Undisturbed (env : Env) (c : Chan) (b : List (Chan × Multipart)) : Prop :=
  ∀ a c' q r m, b = a ++ (c', q) :: r → c' ≠ c → Accepted env.C env.J env.auth q m →
    (c = .control → IsReq m .shutdown ∨ IsReq m .interrupt) → ∃ x ∈ a, x.1 = c ∧ ∃ m', Accepted env.C env.J env.auth x.2 m'

/-- The messages handled one after the other, the headers of the latest accepted message of each channel, and what was done: status
notifications name the message; what is published through the shell socket otherwise names the latest message of the shell channel; and what is
published through the control socket otherwise, the latest one of the control channel, that being done only for shutdown and interrupt
requests. -/
inductive Credited (env : Env) : List (Chan × Multipart) → (Chan → Json) → List Ev → Prop
  | nil : Credited env [] (fun _ => .obj []) []
  | refused {hs lat es} (c : Chan) (q : Multipart) : Credited env hs lat es → Refused env.C env.J env.auth q →
      Credited env (hs ++ [(c, q)]) lat es
  | handled {hs lat es} (c : Chan) (q : Multipart) (m : XMessage) (b : Ev) (inner : List Ev) (i : Ev) : Credited env hs lat es →
      Accepted env.C env.J env.auth q m → IsStatus env c "busy" m.body.header b → IsStatus env c "idle" m.body.header i →
      (∀ e ∈ inner, ¬ AnyStatus e) →
      (∀ e ∈ inner, ∀ c' p wire, e = .pub c' p wire →
        p.body.parent = (if c' = c then m.body.header else lat c') ∧ (c' = .control → IsReq m .shutdown ∨ IsReq m .interrupt)) →
      Credited env (hs ++ [(c, q)]) (fun c' => if c' = c then m.body.header else lat c') (es ++ ([b] ++ inner ++ [i]))

/-- Among messages handled there is an accepted one with this header, all that was done for it follows what was done for the messages before it,
and `o` contains it all. -/
def Concluded (env : Env) (xs : List (Multipart × Chan)) (es o : List Ev) (h : Json) : Prop :=
  ∃ a q c b m es₁ blk es₂, xs = a ++ (q, c) :: b ∧ Accepted env.C env.J env.auth q m ∧ m.body.header = h ∧ es = es₁ ++ blk ++ es₂ ∧
    Transcript env a es₁ ∧ Block env m c blk ∧ Progress env b es₂ ∧ es₁ ++ blk <+: o

end Xeus.Spec
