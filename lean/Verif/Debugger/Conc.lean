import Verif.Link.Model

/-!
# The debugger used by two threads

`xdebugger_base` processes the requests of the frontend on the control thread.  The adapter's events reach it through the callback of
the adapter client, which runs on the thread of the client (`get_event_callback`, `handle_event`, src/xdebugger_base.cpp:59-62, 305-313).  Both threads
use the set of stopped threads; here they run interleaved, one access at a time.

`debug_info_request`, `continued_event` and `stopped_event` lock `m_stopped_mutex` while they use the set (src/xdebugger_base.cpp:90,
284, 291); in each of them that is one access of the model, so that the lock makes it atomic.  `m_stopped_threads.clear()` at
`disconnect` takes no lock (src/xdebugger_base.cpp:375); it is one access here too, although it is a data race if the other thread is
about to make its access.

Simplifications: accesses are sequentially consistent; what arrives on the sockets, the files and the state of the user code may change
at any time, whatever the threads do.
-/

namespace Xeus.Dbg

deriving instance DecidableEq for Except

/-- What happens on the two threads. -/
inductive Mark where
  /-- the control thread begins to process a request -/
  | call (header m : Json)
  /-- it is done -/
  | ret (r : Except Exc Json)
  /-- the client's thread begins to handle an event -/
  | begins (m : Json)
  /-- it is done -/
  | ends (r : Except Exc Unit)
  deriving DecidableEq

/-- The debugger and what is left to do on the two threads. -/
structure Pair (σ : Type) : Type 1 where
  s : State σ
  ctl : Option (K (State σ) Json)
  ev : Option (K (State σ) Unit)
  log : List Mark

section
variable {σ : Type} (d : Debugger σ)

/-- The steps. -/
inductive Move : Pair σ → Pair σ → Prop
  | call {p : Pair σ} (header m : Json) : p.ctl = none →
      Move p { p with ctl := some (processRequest d header m), log := p.log ++ [.call header m] }
  | ctl {p : Pair σ} {q q' : K (State σ) Json} {t : State σ} : p.ctl = some q → Link.Ready q p.s → q.step p.s = some (q', t) →
      Move p { p with s := t, ctl := some q' }
  | ret {p : Pair σ} {a : Json} : p.ctl = some (.done (.ok a)) → Move p { p with ctl := none, log := p.log ++ [.ret (.ok a)] }
  | threw {p : Pair σ} {e : Exc} : p.ctl = some (.done (.exc e)) → Move p { p with ctl := none, log := p.log ++ [.ret (.error e)] }
  | begins {p : Pair σ} (m : Json) : p.ev = none → Move p { p with ev := some (handleEvent d m), log := p.log ++ [.begins m] }
  | ev {p : Pair σ} {q q' : K (State σ) Unit} {t : State σ} : p.ev = some q → Link.Ready q p.s → q.step p.s = some (q', t) →
      Move p { p with s := t, ev := some q' }
  | ends {p : Pair σ} : p.ev = some (.done (.ok ())) → Move p { p with ev := none, log := p.log ++ [.ends (.ok ())] }
  | fails {p : Pair σ} {e : Exc} : p.ev = some (.done (.exc e)) → Move p { p with ev := none, log := p.log ++ [.ends (.error e)] }
  | world {p : Pair σ} (u : σ) (files : Str → Option Str) (replies acks : List Str) :
      Move p { p with s := { p.s with st := u, files := files, replies := replies, acks := acks } }

/-- Executions. -/
inductive Moves : Pair σ → Pair σ → Prop
  | refl (p : Pair σ) : Moves p p
  | tail {p q r : Pair σ} : Moves p q → Move d q r → Moves p r

/-- After construction. -/
def Pair.initial (st : σ) (files : Str → Option Str) : Pair σ := ⟨Dbg.initial st files [] [], none, none, []⟩

end

end Xeus.Dbg
