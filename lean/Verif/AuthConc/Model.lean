import Verif.Wire.Model

/-!
# Concurrent use of one authentication object: the model

Threads call `sign` and `verify` on one shared `openssl_xauthentication` (src/xauthentication.cpp:145-186).
The shared state is the mutex `m_hmac_mutex` and the context `m_hmac` (src/xauthentication.cpp:49-52).  One
step of a thread is one call of the C API (or taking/releasing the mutex); any thread may take the next
step.  The flag `mutex` says whether `std::lock_guard` (lines 150 and 170) is there; the code has it.
-/

namespace Xeus

/-- A call of `sign` or `verify`. -/
inductive Job where
  | sign (h p m c : Frame)
  | verify (s h p m c : Frame)
  deriving DecidableEq

/-- Result of a call. -/
inductive JobOut where
  | signature (s : Frame)
  | verdict (r : Res Bool)
  deriving DecidableEq

/-- The four frames fed to `HMAC_Update`, in order (src/xauthentication.cpp:153-156, 173-176). -/
def Job.frames : Job → List Frame
  | .sign h p m c => [h, p, m, c]
  | .verify _ h p m c => [h, p, m, c]

/-- What the call does after `HMAC_Final` has delivered `digest`
(src/xauthentication.cpp:161-162 and 181-183). -/
def Job.finish (j : Job) (digest : Str) : JobOut :=
  match j with
  | .sign .. => .signature (hexString digest)
  | .verify s .. =>
    let hex := hexString digest
    .verdict (if s.length < hex.length then .ub "CRYPTO_memcmp reads past the signature frame"
      else .ok (s.take hex.length == hex))

/-- Where a thread is inside `sign_impl`/`verify_impl`. -/
inductive Pc where
  /-- not in a call -/
  | idle
  /-- mutex taken, `HMAC_Init_ex` comes next -/
  | locked (j : Job)
  /-- `HMAC_Update` of the listed frames comes next, then `HMAC_Final` -/
  | upd (j : Job) (todo : List Frame)
  /-- `HMAC_Final` done; comparison and release of the mutex come next -/
  | fin (j : Job) (digest : Str)
  deriving DecidableEq

/-- A thread: program point, calls still to make, results obtained. -/
structure Thread where
  pc : Pc
  todo : List Job
  out : List JobOut

/-- Shared and per-thread state. -/
structure AState where
  /-- owner of `m_hmac_mutex` -/
  lock : Option Nat
  /-- `*m_hmac`; `none` before the first `HMAC_Init_ex` -/
  ctx : Option HmacCtx
  th : Nat → Thread

/-- Change of one thread. -/
def AState.setTh (s : AState) (i : Nat) (t : Thread) : Nat → Thread :=
  fun k => if k = i then t else s.th k

/-- One step of thread `i`. -/
inductive AStep (mutex : Bool) (C : Crypto) (d : Digest) (key : Str) : AState → AState → Prop
  | acquire {s : AState} {i : Nat} {j : Job} {js : List Job} {out : List JobOut} :
      s.th i = ⟨.idle, j :: js, out⟩ → (mutex = true → s.lock = none) →
      AStep mutex C d key s { s with lock := some i, th := s.setTh i ⟨.locked j, js, out⟩ }
  | init {s : AState} {i : Nat} {j : Job} {js : List Job} {out : List JobOut} :
      s.th i = ⟨.locked j, js, out⟩ →
      AStep mutex C d key s
        { s with ctx := some (hmacInit d key), th := s.setTh i ⟨.upd j j.frames, js, out⟩ }
  | update {s : AState} {i : Nat} {j : Job} {f : Frame} {fs : List Frame} {js : List Job}
      {out : List JobOut} {c : HmacCtx} :
      s.th i = ⟨.upd j (f :: fs), js, out⟩ → s.ctx = some c →
      AStep mutex C d key s
        { s with ctx := some (hmacUpdate c f), th := s.setTh i ⟨.upd j fs, js, out⟩ }
  | final {s : AState} {i : Nat} {j : Job} {js : List Job} {out : List JobOut} {c : HmacCtx} :
      s.th i = ⟨.upd j [], js, out⟩ → s.ctx = some c →
      AStep mutex C d key s { s with th := s.setTh i ⟨.fin j (hmacFinal C c), js, out⟩ }
  | release {s : AState} {i : Nat} {j : Job} {dg : Str} {js : List Job} {out : List JobOut} :
      s.th i = ⟨.fin j dg, js, out⟩ →
      AStep mutex C d key s { s with lock := none, th := s.setTh i ⟨.idle, js, out ++ [j.finish dg]⟩ }

/-- The state after construction of the object; thread `i` is going to make the calls `jobs i`. -/
def aInit (jobs : Nat → List Job) : AState := ⟨none, none, fun i => ⟨.idle, jobs i, []⟩⟩

/-- Reachable states: any number of steps of any threads in any order. -/
inductive AReach (mutex : Bool) (C : Crypto) (d : Digest) (key : Str) (jobs : Nat → List Job) :
    AState → Prop
  | start : AReach mutex C d key jobs (aInit jobs)
  | step {s s' : AState} : AReach mutex C d key jobs s → AStep mutex C d key s s' →
      AReach mutex C d key jobs s'

end Xeus
