import Verif.Build.Model
import Verif.Kernel.Spec

/-!
# Construction and destruction of a kernel: vocabulary of the properties C82 and C83
-/

namespace Xeus.Build.Spec

open Xeus Xeus.Build

variable {σ : Type}

/-- The configuration handed to the server: the one given, or the default one, with a new identifier for a missing key. -/
def keyed (p : Platform) (g : Given σ) : Setup.Config :=
  let c := g.config.getD .default
  if c.key = [] then { c with key := newXguid (p.guid 2) } else c

/-- The kernel of a core: what arrives reaches the core, on the channel it arrived on, and the interpreter reaches the core. -/
structure Wired (core : Core σ) (k : Kern σ) : Prop where
  shell : ∀ q, notifyShell k.listeners q = dispatch core.env core.I q .shell
  control : ∀ q, notifyControl k.listeners q = dispatch core.env core.I q .control
  stdin : ∀ q, notifyStdin k.listeners q = dispatchStdin core.env q
  internal : ∀ text, notifyInternal k.listeners text = dispatchInternal core.env core.I text
  ops : ∀ o, via core.env.H k.listeners k.bindings o = o.sem core.env

/-- The constants of the core are those of the kernel: messages carry the user name given, a session and a kernel identifier of
their own, are signed and printed as configured, and are logged if there is a logger and `XEUS_LOG` is set. -/
structure Identified (p : Platform) (g : Given σ) (env : Env) : Prop where
  user : env.user = g.user
  session : env.session = newXguid (p.guid 1)
  kernelId : env.kernelId = newXguid (p.guid 0)
  auth : makeXauthentication (keyed p g).scheme (keyed p g).key = .ok env.auth
  eh : env.eh = g.eh
  log : env.log = if p.xeusLog then g.logger.getD (fun _ => .ok ()) else fun _ => .ok ()
  fresh : ∃ m, 2 ≤ m ∧ ((g.config.getD .default).key = [] → 3 ≤ m) ∧ ∀ n, env.guid n = p.guid (n + m)
  libs : env.C = p.C ∧ env.J = p.J ∧ env.H = g.manager.getD (inMemory p.R) ∧ env.now = p.now

/-- What user code can do when the interpreter is configured: everything, but with a remote messenger a request to the shell is
never answered. -/
def duringConfigure (core : Core σ) (remote : Bool) : DOp → K (World σ) Val
  | .base o => o.sem core.env
  | .toShell j =>
    if remote then do
      let _ ← K.ofRes (core.env.J.writeZmq .strict j)
      K.ofRes .hang
    else (DOp.toShell j).sem core.env core.I

/-- The program makes no call. -/
inductive Quiet {Ω α : Type} : Prog σ Ω α → Prop
  | ret (a : α) : Quiet (.ret a)
  | get (k : σ → Prog σ Ω α) : (∀ s, Quiet (k s)) → Quiet (.get k)
  | set (s : σ) (k : Prog σ Ω α) : Quiet k → Quiet (.set s k)

end Xeus.Build.Spec
