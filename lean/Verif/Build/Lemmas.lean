import Verif.Build.Spec
import Verif.Kernel.User
import Verif.Kernel.Frame

/-!
# Construction of a kernel: lemmas
-/

namespace Xeus.Build

open Xeus Spec

variable {σ : Type}

/-- The core of a kernel. -/
def coreOf (p : Platform) (g : Given σ) (auth : Auth) (d : Option (Debugger σ)) : Core σ :=
  ⟨{ C := p.C, J := p.J, auth := auth, eh := g.eh, kernelId := newXguid (p.guid 0), user := g.user,
     session := newXguid (p.guid 1), guid := fun n => p.guid (n + if (g.config.getD .default).key = [] then 3 else 2),
     now := p.now, H := managerOf p g, log := if p.xeusLog then g.logger.getD nolog else nolog, patience := p.patience },
    withDebugger g.interp d⟩

/-- The kernel before the server is built. -/
def k₁ (p : Platform) (g : Given σ) : Kern σ :=
  { config := keyed p g, kernelId := newXguid (p.guid 0), sessionId := newXguid (p.guid 1),
    logger := if g.logger.isNone || !p.xeusLog then some nolog else g.logger, w := World.initial g.st [] g.stdinQ,
    calls := [.server (keyed p g)] }

/-- The kernel before the debugger is built. -/
def k₂ (p : Platform) (g : Given σ) (s : Server) (shown : Setup.Config) : Kern σ :=
  { k₁ p g with
    config := shown, server := some s,
    calls := [.server (keyed p g), .debugger shown g.user (newXguid (p.guid 1)) g.debuggerConfig] }

/-- The kernel before the interpreter is configured. -/
def k₃ (p : Platform) (g : Given σ) (auth : Auth) (s : Server) (shown : Setup.Config) (d : Option (Debugger σ)) : Kern σ :=
  { bindCore (coreOf p g auth d) { k₂ p g s shown with debugger := d } with
    debuggerMessenger := d.isSome
    bindings := { publisher := some (coreOf p g auth d, .shell), stdin := some (coreOf p g auth d),
                  comms := some (coreOf p g auth d), parentHeader := some .shell, messenger := true, history := true } }

theorem initAuth_keyed (p : Platform) (g : Given σ) : Setup.initAuth (g.config.getD .default) (p.guid 2) =
    (makeXauthentication (keyed p g).scheme (keyed p g).key >>= fun a => pure ((keyed p g).key, a)) := by
  unfold Setup.initAuth keyed
  by_cases h : (g.config.getD .default).key = [] <;> simp [h]

theorem via_wired (core : Core σ) (l : Listeners σ) (b : Bindings σ) (hl : l.stdin = some ⟨.dispatchStdin, core⟩)
    (h1 : b.publisher = some (core, .shell)) (h2 : b.stdin = some core) (h3 : b.comms = some core)
    (h4 : b.parentHeader = some .shell) (h5 : b.history = true) (o : Op) : via core.env.H l b o = o.sem core.env := by
  have hn : ∀ q, notifyStdin l q = dispatchStdin core.env q := by
    intro q
    simp only [notifyStdin, hl, invoke, Listener.call]
  cases o with
  | pub p => simp only [via, h1]; rfl
  | input prompt pwd =>
    have : sendStdin core.env l = Xeus.sendStdin core.env := by
      funext t md ct
      simp only [sendStdin, hn]
      rfl
    simp only [via, blockingInput, h2, this]
    rfl
  | parentHeader => simp only [via, h4]; rfl
  | history q => simp only [via, h5, if_true]; rfl
  | comm o => simp only [via, h3]; rfl
  | commSend k a md data bufs => simp only [via, h3]; rfl

theorem viaAll_wired (core : Core σ) (s : Server) (l : Listeners σ) (b : Bindings σ)
    (hl : l.stdin = some ⟨.dispatchStdin, core⟩) (hi : l.internal = some core)
    (h1 : b.publisher = some (core, .shell)) (h2 : b.stdin = some core) (h3 : b.comms = some core)
    (h4 : b.parentHeader = some .shell) (h5 : b.history = true) (h6 : b.messenger = true) :
    viaAll core.env.J core.env.H s l b = duringConfigure core s.remote := by
  funext o
  cases o with
  | base o => exact via_wired core l b hl h1 h2 h3 h4 h5 o
  | toShell j =>
    have hn : ∀ t, notifyInternal l t = dispatchInternal core.env core.I t := by
      intro t
      simp only [notifyInternal, hi, invoke]
    cases hr : s.remote with
    | false =>
      simp only [viaAll, h6, if_true, sendToShell, hr, duringConfigure, hn]
      rfl
    | true =>
      simp only [viaAll, h6, if_true, sendToShell, hr, duringConfigure]
      cases core.env.J.writeZmq .strict j <;> rfl

theorem init_run (p : Platform) (g : Given σ) : (init p g).run (Kern.new g) =
    match makeXauthentication (keyed p g).scheme (keyed p g).key with
    | .exc e => (.exc e, { Kern.new g with kernelId := newXguid (p.guid 0), sessionId := newXguid (p.guid 1) })
    | .ub e => (.ub e, { Kern.new g with kernelId := newXguid (p.guid 0), sessionId := newXguid (p.guid 1) })
    | .hang => (.hang, { Kern.new g with kernelId := newXguid (p.guid 0), sessionId := newXguid (p.guid 1) })
    | .ok auth =>
      match g.server (keyed p g) with
      | .exc e => (.exc e, k₁ p g)
      | .ub e => (.ub e, k₁ p g)
      | .hang => (.hang, k₁ p g)
      | .ok s =>
        match s.update (keyed p g) with
        | .exc e => (.exc e, { k₁ p g with server := some s })
        | .ub e => (.ub e, { k₁ p g with server := some s })
        | .hang => (.hang, { k₁ p g with server := some s })
        | .ok shown =>
          match g.debugger shown g.user (newXguid (p.guid 1)) g.debuggerConfig with
          | .exc e => (.exc e, k₂ p g s shown)
          | .ub e => (.ub e, k₂ p g s shown)
          | .hang => (.hang, k₂ p g s shown)
          | .ok d =>
            (((g.conf.exec (duringConfigure (coreOf p g auth d) s.remote)).run (World.initial g.st [] g.stdinQ)).1,
              { k₃ p g auth s shown d with
                w := ((g.conf.exec (duringConfigure (coreOf p g auth d) s.remote)).run (World.initial g.st [] g.stdinQ)).2 }) := by
  have hk : ({ g.config.getD .default with key := (keyed p g).key } : Setup.Config) = keyed p g := by
    unfold keyed
    by_cases h : (g.config.getD .default).key = [] <;> simp [h]
  have hi := initAuth_keyed p g
  cases ha : makeXauthentication (keyed p g).scheme (keyed p g).key with
  | exc e =>
    rw [ha] at hi
    simp only [init, K.run_bind, K.run_modify, K.andThen_ok, K.run_read, K.run_ofRes, Kern.new, hi]
    rfl
  | ub e =>
    rw [ha] at hi
    simp only [init, K.run_bind, K.run_modify, K.andThen_ok, K.run_read, K.run_ofRes, Kern.new, hi]
    rfl
  | hang =>
    rw [ha] at hi
    simp only [init, K.run_bind, K.run_modify, K.andThen_ok, K.run_read, K.run_ofRes, Kern.new, hi]
    rfl
  | ok auth =>
    rw [ha] at hi
    have hi : Setup.initAuth (g.config.getD .default) (p.guid 2) = .ok ((keyed p g).key, auth) := hi
    simp only [init, K.run_bind, K.run_modify, K.andThen_ok, K.run_read, K.run_ofRes, Kern.new, hi, called, hk]
    cases hs : g.server (keyed p g) with
    | exc e => rfl
    | ub e => rfl
    | hang => rfl
    | ok s =>
      simp only [K.andThen_ok]
      cases hu : s.update (keyed p g) with
      | exc e => rfl
      | ub e => rfl
      | hang => rfl
      | ok shown =>
        simp only [K.andThen_ok, id]
        cases hd : g.debugger shown g.user (newXguid (p.guid 1)) g.debuggerConfig with
        | exc e => rfl
        | ub e => rfl
        | hang => rfl
        | ok d =>
          simp only [K.andThen_ok]
          have hcore : (⟨coreEnv p g { k₂ p g s shown with calls := [.server (keyed p g)] } auth
              (if (g.config.getD .default).key = [] then 3 else 2), withDebugger g.interp d⟩ : Core σ) = coreOf p g auth d := by
            simp only [coreEnv, coreOf, k₂, k₁]
            congr 2
            cases g.logger <;> cases p.xeusLog <;> rfl
          have hv := viaAll_wired (coreOf p g auth d) s (k₃ p g auth s shown d).listeners (k₃ p g auth s shown d).bindings
            rfl rfl rfl rfl rfl rfl rfl rfl
          have hJ : (coreOf p g auth d).env.J = p.J := rfl
          have hR : (coreOf p g auth d).env.H = managerOf p g := rfl
          rw [hJ, hR] at hv
          rw [← hv]
          refine Eq.trans (congrArg _ (congrArg (fun c => bindCore c { k₂ p g s shown with debugger := d }) hcore)) ?_
          cases d <;>
            simp only [Option.isSome, Bool.false_eq_true, if_true, if_false, K.run_bind, K.run_modify, K.andThen_ok, inKernel,
              K.run_lift] <;> rfl

/-! ## Consequences -/

/-- What there is when `init` has succeeded. -/
structure Steps (p : Platform) (g : Given σ) (auth : Auth) (s : Server) (shown : Setup.Config) (d : Option (Debugger σ)) : Prop where
  auth : makeXauthentication (keyed p g).scheme (keyed p g).key = .ok auth
  server : g.server (keyed p g) = .ok s
  update : s.update (keyed p g) = .ok shown
  debugger : g.debugger shown g.user (newXguid (p.guid 1)) g.debuggerConfig = .ok d

/-- Configuring the interpreter. -/
abbrev confRun (p : Platform) (g : Given σ) (auth : Auth) (s : Server) (d : Option (Debugger σ)) : Res Unit × World σ :=
  (g.conf.exec (duringConfigure (coreOf p g auth d) s.remote)).run (World.initial g.st [] g.stdinQ)

theorem init_made {p : Platform} {g : Given σ} {auth s shown d} (h : Steps p g auth s shown d) :
    (init p g).run (Kern.new g) = ((confRun p g auth s d).1, { k₃ p g auth s shown d with w := (confRun p g auth s d).2 }) := by
  rw [init_run, h.auth]
  simp only [h.server, h.update, h.debugger]

theorem init_ok {p : Platform} {g : Given σ} {k : Kern σ} (h : (init p g).run (Kern.new g) = (.ok (), k)) :
    ∃ auth s shown d, Steps p g auth s shown d ∧ confRun p g auth s d = (.ok (), k.w) ∧
      k = { k₃ p g auth s shown d with w := k.w } := by
  rw [init_run] at h
  split at h
  · simp at h
  · simp at h
  · simp at h
  rename_i auth ha
  split at h
  · simp at h
  · simp at h
  · simp at h
  rename_i s hs
  split at h
  · simp at h
  · simp at h
  · simp at h
  rename_i shown hu
  split at h
  · simp at h
  · simp at h
  · simp at h
  rename_i d hd
  injection h with h1 h2
  subst h2
  exact ⟨auth, s, shown, d, ⟨ha, hs, hu, hd⟩, Prod.ext h1 rfl, rfl⟩

theorem construct_ok {p : Platform} {g : Given σ} {k : Kern σ} : construct p g = .ok k ↔
    (init p g).run (Kern.new g) = (.ok (), k) := by
  unfold construct
  split
  · rename_i k' h
    rw [h]
    simp
  · rename_i e k' h
    rw [h]
    split <;> simp
  · rename_i h
    rw [h]
    simp
  · rename_i h
    rw [h]
    simp

theorem identified_coreOf (p : Platform) (g : Given σ) (auth : Auth) (d : Option (Debugger σ))
    (ha : makeXauthentication (keyed p g).scheme (keyed p g).key = .ok auth) : Identified p g (coreOf p g auth d).env where
  user := rfl
  session := rfl
  kernelId := rfl
  auth := ha
  eh := rfl
  log := rfl
  fresh := ⟨if (g.config.getD .default).key = [] then 3 else 2, by split <;> omega, fun h => by rw [if_pos h]; omega, fun _ => rfl⟩
  libs := ⟨rfl, rfl, rfl, rfl⟩

/-- A program that ended although requests to the shell may not be answered did nothing else. -/
theorem exec_configured (core : Core σ) (r : Bool) {α : Type} (q : Prog σ DOp α) :
    ∀ (w w' : World σ) (a : α), (q.exec (duringConfigure core r)).run w = (.ok a, w') →
      (q.exec (DOp.sem core.env core.I)).run w = (.ok a, w') := by
  induction q with
  | ret a => exact fun _ _ _ h => h
  | throw e => exact fun _ _ _ h => h
  | ub s => exact fun _ _ _ h => h
  | hang => exact fun _ _ _ h => h
  | get k ih =>
    intro w w' a h
    simp only [Prog.exec, K.run_bind, K.run_read, K.andThen_ok] at h ⊢
    exact ih _ _ _ _ h
  | set s k ih =>
    intro w w' a h
    simp only [Prog.exec, K.run_bind, K.run_modify, K.andThen_ok] at h ⊢
    exact ih _ _ _ h
  | call o k ih =>
    intro w w' a h
    have key : (duringConfigure core r o).run w = (o.sem core.env core.I).run w ∨
        (∃ e, (duringConfigure core r o).run w = (.exc e, w) ∧ (o.sem core.env core.I).run w = (.exc e, w)) ∨
        (duringConfigure core r o).run w = (.hang, w) ∨ ∃ s, (duringConfigure core r o).run w = (.ub s, w) := by
      cases o with
      | base o => exact .inl rfl
      | toShell j =>
        cases r with
        | false => exact .inl rfl
        | true =>
          simp only [duringConfigure, if_true, K.run_bind, K.run_ofRes, DOp.sem, Xeus.sendToShell]
          cases core.env.J.writeZmq .strict j with
          | ok t => exact .inr (.inr (.inl (by simp)))
          | exc e => exact .inr (.inl ⟨e, by simp, by simp⟩)
          | ub s => exact .inr (.inr (.inr ⟨s, by simp⟩))
          | hang => exact .inr (.inr (.inl (by simp)))
    simp only [Prog.exec, K.run_bind, K.run_attempt] at h ⊢
    rcases key with e | ⟨x, e, e'⟩ | e | ⟨s, e⟩
    · rw [← e]
      revert h
      rcases K.captured ((duringConfigure core r o).run w) with ⟨_ | _ | _ | _, w₁⟩
      · simp only [K.andThen_ok]
        exact ih _ _ _ _
      all_goals simp
    · rw [e, K.captured_exc, K.andThen_ok] at h
      rw [e', K.captured_exc, K.andThen_ok]
      exact ih _ _ _ _ h
    · rw [e] at h
      simp at h
    · rw [e] at h
      simp at h

theorem exec_quiet {Ω : Type} (sem : Ω → K (World σ) Val) {q : Prog σ Ω Unit} (h : Quiet q) (w : World σ) :
    ((q.exec sem).run w).1 = .ok () := by
  induction h generalizing w with
  | ret a => rfl
  | get k _ ih =>
    simp only [Prog.exec, K.run_bind, K.run_read, K.andThen_ok]
    exact ih _ _
  | set s k _ ih =>
    simp only [Prog.exec, K.run_bind, K.run_modify, K.andThen_ok]
    exact ih _

end Xeus.Build
