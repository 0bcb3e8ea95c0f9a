import Verif.Build.Lemmas
import Verif.Setup.Props
import Verif.Kernel.PropsSession
import Verif.KernelConc.Model

/-!
# Construction and destruction of a kernel: the properties C82 and C83
-/

namespace Xeus

open Spec Build Build.Spec

variable {σ : Type}

/-! ## A sample -/

/-- A platform. -/
def samplePlatform : Platform where
  C := toyCrypto
  J := stdCodec
  R := stdRegex
  guid n := List.replicate n 7
  now := sampleEnv.now
  xeusLog := true
  patience := 0

/-- A kernel of the default server in surroundings where the port 60000 is free, whose interpreter greets when it is
configured. -/
def sampleGiven : Given Nat where
  config := none
  user := lit "user"
  interp := sampleInterp
  st := 0
  conf := .call (.base (.pub (.stream (lit "stdout") (lit "hello")))) fun _ => .ret ()
  fin := .ret ()
  logger := none
  server := makeXserver ⟨someWorld, someWorld, someWorld, someWorld, someWorld⟩
  debugger := makeNullDebugger
  debuggerConfig := .obj []
  eh := .strict

/-- The same with a server without sockets of its own. -/
def plainGiven : Given Nat := { sampleGiven with server := fun _ => .ok ⟨.ok, false, 0⟩ }

theorem exists_ok {α : Type} {r : Res α} (h : (match r with | .ok _ => true | _ => false) = true) : ∃ a, r = .ok a := by
  cases r <;> simp at h ⊢

theorem sampleGiven_ok : ∃ k, construct samplePlatform sampleGiven = .ok k := exists_ok (by decide +kernel)

theorem plainGiven_ok : ∃ k, construct samplePlatform plainGiven = .ok k := exists_ok (by decide +kernel)

/-! ## C82 -/

/-- C82: in a kernel that was constructed, messages that arrive on the shell, control and stdin socket and internal requests reach
the core as such, whatever the interpreter does reaches the core, the constants of the core are those given, and the debugger it
calls is the one that was built. -/
theorem C82_wired (p : Platform) (g : Given σ) (k : Kern σ) (h : construct p g = .ok k) :
    ∃ core, k.core = some core ∧ Wired core k ∧ Identified p g core.env ∧
      core.I = { g.interp with debug := k.debugger.map (·.process) } ∧ k.debuggerMessenger = k.debugger.isSome ∧
      k.bindings.messenger = true := by
  obtain ⟨auth, s, shown, d, hm, hr, hk⟩ := init_ok (construct_ok.1 h)
  rw [hk]
  exact ⟨coreOf p g auth d, rfl, ⟨fun _ => rfl, fun _ => rfl, fun _ => rfl, fun _ => rfl,
    fun o => via_wired _ _ _ rfl rfl rfl rfl rfl rfl o⟩, identified_coreOf p g auth d hm.auth, rfl, rfl, rfl⟩

example : ∃ k, construct samplePlatform sampleGiven = .ok k := sampleGiven_ok

/-- C82: each builder was called once, the server's first, with the configuration given and a new key if there was none; then the
debugger's, with what `get_config()` returns from then on, i.e. what the server made of the configuration. -/
theorem C82_calls (p : Platform) (g : Given σ) (k : Kern σ) (h : construct p g = .ok k) :
    k.calls = [.server (keyed p g), .debugger k.config g.user (newXguid (p.guid 1)) g.debuggerConfig] ∧
    (∃ s, k.server = some s ∧ g.server (keyed p g) = .ok s ∧ s.update (keyed p g) = .ok k.config) ∧
    g.debugger k.config g.user (newXguid (p.guid 1)) g.debuggerConfig = .ok k.debugger := by
  obtain ⟨auth, s, shown, d, hm, hr, hk⟩ := init_ok (construct_ok.1 h)
  rw [hk]
  exact ⟨rfl, ⟨s, rfl, hm.server, hm.update⟩, hm.debugger⟩

/-- C82: whatever happens, a builder is called at most once, the debugger's only after the server's, and none if the signature
scheme is unknown. -/
theorem C82_at_most_once (p : Platform) (g : Given σ) :
    (∃ d, ((init p g).run (Kern.new g)).2.calls <+: [.server (keyed p g), d]) ∧
    ((∀ a, makeXauthentication (keyed p g).scheme (keyed p g).key ≠ .ok a) → ((init p g).run (Kern.new g)).2.calls = []) := by
  rw [init_run]
  cases ha : makeXauthentication (keyed p g).scheme (keyed p g).key with
  | exc e => exact ⟨⟨.server (keyed p g), by simp [Kern.new]⟩, fun _ => rfl⟩
  | ub e => exact ⟨⟨.server (keyed p g), by simp [Kern.new]⟩, fun _ => rfl⟩
  | hang => exact ⟨⟨.server (keyed p g), by simp [Kern.new]⟩, fun _ => rfl⟩
  | ok auth =>
    refine ⟨?_, fun h => absurd rfl (h auth)⟩
    have one : ∃ d, (k₁ p g).calls <+: [.server (keyed p g), d] := ⟨.server (keyed p g), _, rfl⟩
    cases hs : g.server (keyed p g) with
    | exc e => exact one
    | ub e => exact one
    | hang => exact one
    | ok s =>
      simp only
      cases hu : s.update (keyed p g) with
      | exc e => exact one
      | ub e => exact one
      | hang => exact one
      | ok shown =>
        simp only
        have two : ∃ d, (k₂ p g s shown).calls <+: [.server (keyed p g), d] := ⟨_, List.prefix_refl _⟩
        cases hd : g.debugger shown g.user (newXguid (p.guid 1)) g.debuggerConfig with
        | exc e => exact two
        | ub e => exact two
        | hang => exact two
        | ok d => exact ⟨_, List.prefix_refl _⟩

/-- A configuration with an unknown signature scheme. -/
example : ∀ a, makeXauthentication
    (keyed samplePlatform { sampleGiven with config := some { Setup.Config.default with scheme := lit "hmac-sha3" } }).scheme
    (keyed samplePlatform { sampleGiven with config := some { Setup.Config.default with scheme := lit "hmac-sha3" } }).key ≠ .ok a := by
  intro a h
  have : makeXauthentication (lit "hmac-sha3") (newXguid (samplePlatform.guid 2)) = .exc .outOfRange := by
    decide +kernel
  exact absurd (h.symm.trans this) (by simp)

/-- C82: nothing else is needed: if the scheme is known, the builders and `update_config` succeed, and configuring the interpreter
ends, then there is a kernel. -/
theorem C82_succeeds (p : Platform) (g : Given σ) (auth : Auth) (s : Server) (shown : Setup.Config) (d : Option (Debugger σ))
    (ha : makeXauthentication (keyed p g).scheme (keyed p g).key = .ok auth) (hs : g.server (keyed p g) = .ok s)
    (hu : s.update (keyed p g) = .ok shown) (hd : g.debugger shown g.user (newXguid (p.guid 1)) g.debuggerConfig = .ok d)
    (hc : ∀ core : Core σ, Identified p g core.env → core.I = { g.interp with debug := d.map (·.process) } →
      ((g.conf.exec (duringConfigure core s.remote)).run (World.initial g.st [] g.stdinQ)).1 = .ok ()) :
    ∃ k, construct p g = .ok k := by
  have hm : Steps p g auth s shown d := ⟨ha, hs, hu, hd⟩
  exact ⟨_, construct_ok.2 ((init_made hm).trans (Prod.ext (hc _ (identified_coreOf p g auth d ha) rfl) rfl))⟩

/-- C82: the state of a new kernel is that after `configure`, which ran once, with everything connected, so that what a kernel
does after it was constructed is what C11 to C73 say of the `life` of a kernel with the constants given. -/
theorem C82_life (p : Platform) (g : Given σ) (k : Kern σ) (h : construct p g = .ok k) (core : Core σ) (hc : k.core = some core) :
    (configure core.env core.I g.conf).run (World.initial g.st [] g.stdinQ) = (.ok (), k.w) ∧
    ∀ xs, (life core.env core.I g.conf xs).run (World.initial g.st [] g.stdinQ) =
      (do start core.env; session core.env core.I xs : K (World σ) Unit).run k.w := by
  obtain ⟨auth, s, shown, d, hm, hr, hk⟩ := init_ok (construct_ok.1 h)
  have : core = coreOf p g auth d := by
    rw [hk] at hc
    exact (Option.some.inj hc).symm
  subst this
  have hrun := exec_configured _ _ _ _ _ _ hr
  refine ⟨hrun, fun xs => ?_⟩
  simp only [life, K.run_bind, show (configure _ _ g.conf).run (World.initial g.st [] g.stdinQ) = _ from hrun, K.andThen_ok]

/-- C82: these constants are fit for use if those given are: the codec is lawful, the names are UTF-8 and the logger does not
throw. -/
theorem C82_sane (p : Platform) (g : Given σ) (k : Kern σ) (h : construct p g = .ok k) (core : Core σ) (hc : k.core = some core)
    (hJ : LawfulCodec p.J) (hR : LawfulRegex p.R) (hM : ∀ M, g.manager = some M → M.StdOnly) (hu : g.eh = .strict → Utf8 g.user) (hn : g.eh = .strict → ∀ n, Utf8 (p.now n))
    (hl : ∀ f, g.logger = some f → p.xeusLog = true → ∀ e, f e = .ok ()) : Sane core.env := by
  obtain ⟨core', hc', _, hi, _⟩ := C82_wired p g k h
  rw [hc] at hc'
  cases hc'
  obtain ⟨_, l2, l3, l4⟩ := hi.libs
  refine ⟨by rw [l2]; exact hJ, by rw [hi.eh, hi.user]; exact hu, fun _ => by rw [hi.session]; exact hexString_utf8 _,
    by rw [hi.eh, l4]; exact hn, fun e => ?_, ?_⟩
  rotate_left
  · rw [l3]
    cases hg : g.manager with
    | none => exact inMemory_stdOnly hR
    | some M => exact hM M hg
  rw [hi.log]
  split
  · rename_i hx
    cases hg : g.logger with
    | none => rfl
    | some f => exact hl f hg hx e
  · rfl

example : LawfulCodec samplePlatform.J ∧ LawfulRegex samplePlatform.R ∧ (∀ n, Utf8 (samplePlatform.now n)) :=
  ⟨stdCodec_lawful, stdRegex_lawful, sampleEnv_sane.now rfl⟩

/-- C82: a new kernel has handled nothing and sent nothing but what the interpreter sent while it was configured, which has no
parent: the servers of C76 to C81 start from such a state. -/
theorem C82_ready (p : Platform) (g : Given σ) (k : Kern σ) (h : construct p g = .ok k) (core : Core σ) (hc : k.core = some core)
    (hl : ∀ f, g.logger = some f → p.xeusLog = true → ∀ e, f e = .ok ()) :
    (∃ st : Start σ, st.w = { k.w with out := [] }) ∧ k.w.hist = [] ∧ ∀ e ∈ k.w.out, IsOutput core.env ⟨[], .obj []⟩ e := by
  have hlog : ∀ e, core.env.log e = .ok () := by
    obtain ⟨core', hc', _, hi, _⟩ := C82_wired p g k h
    rw [hc] at hc'
    cases hc'
    intro e
    rw [hi.log]
    split
    · rename_i hx
      cases hg : g.logger with
      | none => rfl
      | some f => exact hl f hg hx e
    · rfl
  have hr := (C82_life p g k h core hc).1
  have hu := keeps_debugger hlog core.I g.conf (World.initial g.st [] g.stdinQ)
  rw [show (g.conf.exec _).run (World.initial g.st [] g.stdinQ) = _ from hr] at hu
  obtain ⟨es, ho, he⟩ := hu.out
  refine ⟨⟨⟨{ k.w with out := [] }, hu.parent, hu.count, hu.shellQ, rfl⟩, rfl⟩, hu.hist, fun e hm => ?_⟩
  rw [ho] at hm
  exact (he e (by simpa [World.initial] using hm)).output

/-- The sample kernel has greeted. -/
example : ∃ k, construct samplePlatform sampleGiven = .ok k ∧ k.w.out.length = 1 := by
  obtain ⟨k, hk⟩ := sampleGiven_ok
  refine ⟨k, hk, ?_⟩
  have : (match construct samplePlatform sampleGiven with | .ok k => k.w.out.length | _ => 0) = 1 := by decide +kernel
  rw [hk] at this
  exact this

/-- C82: with the library's servers `get_config()` shows the end points the server was started with, as in C66, and differs from
the configuration given in nothing but ports and a missing key. -/
theorem C82_ports (p : Platform) (g : Given σ) (k : Kern σ) (W : Setup.Worlds) (h : construct p g = .ok k)
    (hs : g.server = makeXserver W ∨ g.server = makeXserverSplit W)
    (ht : (g.config.getD .default).transport = lit "tcp") (hw : Setup.Spec.Worlds.All W Setup.Spec.Draws)
    (hv : Setup.Spec.Worlds.All W (Setup.Spec.Verbatim · (g.config.getD .default).transport (g.config.getD .default).ip))
    (hp : Setup.Spec.Ports (g.config.getD .default) (58 ∉ ·)) :
    (∃ s, Setup.Spec.AllStarted W s (keyed p g) k.config) ∧
    k.config.key = (if (g.config.getD .default).key = [] then newXguid (p.guid 2) else (g.config.getD .default).key) := by
  obtain ⟨-, ⟨s, -, h1, h2⟩, -⟩ := C82_calls p g k h
  have e : (keyed p g).transport = (g.config.getD .default).transport ∧ (keyed p g).ip = (g.config.getD .default).ip ∧
      (Setup.Spec.Ports (g.config.getD .default) (58 ∉ ·) → Setup.Spec.Ports (keyed p g) (58 ∉ ·)) ∧
      (keyed p g).key = (if (g.config.getD .default).key = [] then newXguid (p.guid 2) else (g.config.getD .default).key) := by
    unfold keyed
    by_cases hk : (g.config.getD .default).key = [] <;> simp [hk, Setup.Spec.Ports]
  have key : ∃ ss, (Setup.openDefault W (keyed p g) = .ok ss ∨ Setup.openSplit W (keyed p g) = .ok ss) ∧
      s.update = Setup.updateConfig ss := by
    rcases hs with hs | hs <;> rw [hs] at h1
    · unfold makeXserver at h1
      cases ho : Setup.openDefault W (keyed p g) with
      | ok ss =>
        rw [ho] at h1
        cases h1
        exact ⟨ss, .inl rfl, rfl⟩
      | _ => rw [ho] at h1; cases h1
    · unfold makeXserverSplit at h1
      cases ho : Setup.openSplit W (keyed p g) with
      | ok ss =>
        rw [ho] at h1
        cases h1
        exact ⟨ss, .inr rfl, rfl⟩
      | _ => rw [ho] at h1; cases h1
  obtain ⟨ss, ho, hu⟩ := key
  rw [hu] at h2
  have hlen : Setup.Spec.Sockets.All ss (fun k => k.last.length ≤ 31) := by
    refine Classical.byContradiction fun hn => ?_
    rw [C66_long ss _ hn] at h2
    cases h2
  obtain ⟨shown, h3, h4⟩ := C66_config W (keyed p g) ss (e.1.trans ht) hw (by rw [e.1, e.2.1]; exact hv) (e.2.2.1 hp) ho hlen
  rw [h2] at h3
  cases h3
  exact ⟨⟨ss, h4⟩, h4.rest.2.2.2.trans e.2.2.2⟩

example : ∃ k, construct samplePlatform sampleGiven = .ok k ∧ k.config.shellPort = lit "60000" := by
  obtain ⟨k, hk⟩ := sampleGiven_ok
  refine ⟨k, hk, ?_⟩
  have : (match construct samplePlatform sampleGiven with | .ok k => k.config.shellPort | _ => []) = lit "60000" := by decide +kernel
  rw [hk] at this
  exact this

/-- C82: a kernel constructed without a configuration listens on the local address with TCP, at ports found for it, and signs with
`hmac-sha256` under a new random key; all of which `get_config()` shows. -/
theorem C82_default (p : Platform) (g : Given σ) (k : Kern σ) (W : Setup.Worlds) (h : construct p g = .ok k)
    (hs : g.server = makeXserver W ∨ g.server = makeXserverSplit W) (hc : g.config = none)
    (hw : Setup.Spec.Worlds.All W Setup.Spec.Draws)
    (hv : Setup.Spec.Worlds.All W (Setup.Spec.Verbatim · (lit "tcp") (lit "127.0.0.1"))) :
    ∃ (s : Setup.Sockets) (core : Core σ), k.core = some core ∧
      k.config.transport = lit "tcp" ∧ k.config.ip = lit "127.0.0.1" ∧ k.config.scheme = lit "hmac-sha256" ∧
      k.config.key = newXguid (p.guid 2) ∧ core.env.auth = .hmac .sha256 (newXguid (p.guid 2)) ∧
      Setup.Spec.Started W.control s.control (lit "tcp") (lit "127.0.0.1") [] k.config.controlPort ∧
      Setup.Spec.Started W.shell s.shell (lit "tcp") (lit "127.0.0.1") [] k.config.shellPort ∧
      Setup.Spec.Started W.stdin s.stdin (lit "tcp") (lit "127.0.0.1") [] k.config.stdinPort ∧
      Setup.Spec.Started W.iopub s.iopub (lit "tcp") (lit "127.0.0.1") [] k.config.iopubPort ∧
      Setup.Spec.Started W.hb s.hb (lit "tcp") (lit "127.0.0.1") [] k.config.hbPort := by
  have hk : keyed p g = ⟨lit "tcp", lit "127.0.0.1", [], [], [], [], [], lit "hmac-sha256", newXguid (p.guid 2)⟩ := by
    simp [keyed, hc, Setup.Config.default]
  obtain ⟨core, hcore, _, hi, _⟩ := C82_wired p g k h
  obtain ⟨⟨s, ha⟩, _⟩ := C82_ports p g k W h hs (by rw [hc]; rfl) hw (by rw [hc]; exact hv)
    (by rw [hc]; simp [Setup.Spec.Ports, Setup.Config.default])
  have hauth := hi.auth
  rw [hk] at ha hauth
  refine ⟨s, core, hcore, ha.rest.1, ha.rest.2.1, ha.rest.2.2.1, ha.rest.2.2.2, ?_, ha.control, ha.shell, ha.stdin, ha.iopub, ha.hb⟩
  have := ((C09_scheme_selection (lit "hmac-sha256") (newXguid (p.guid 2))).2.1 .sha256 (newXguid (p.guid 2))).2
    ⟨by decide +kernel, rfl⟩
  rw [this] at hauth
  exact (Res.ok.inj hauth).symm

example : ∃ k core, construct samplePlatform sampleGiven = .ok k ∧ k.core = some core ∧
    core.env.auth = .hmac .sha256 (newXguid (samplePlatform.guid 2)) := by
  have hv : Setup.Spec.Verbatim someWorld (lit "tcp") (lit "127.0.0.1") := by
    intro i port last h
    simp only [someWorld] at h
    split at h
    · cases h; rfl
    · cases h
  obtain ⟨k, hk⟩ := sampleGiven_ok
  obtain ⟨s, core, h1, _, _, _, _, h2, _⟩ := C82_default samplePlatform sampleGiven k
    ⟨someWorld, someWorld, someWorld, someWorld, someWorld⟩ hk (.inl rfl) rfl
    ⟨someWorld_draws, someWorld_draws, someWorld_draws, someWorld_draws, someWorld_draws⟩ ⟨hv, hv, hv, hv, hv⟩
  exact ⟨k, core, hk, h1, h2⟩

/-- C82: if the system's identifiers are distinct, so are kernel, session, a key that was drawn, and the messages of the kernel. -/
theorem C82_distinct (p : Platform) (g : Given σ) (k : Kern σ) (h : construct p g = .ok k) (core : Core σ) (hc : k.core = some core)
    (hg : ∀ i j, p.guid i = p.guid j → i = j) :
    core.env.kernelId ≠ core.env.session ∧
    (∀ n, newXguid (core.env.guid n) ≠ core.env.kernelId ∧ newXguid (core.env.guid n) ≠ core.env.session ∧
      ((g.config.getD .default).key = [] → newXguid (core.env.guid n) ≠ (keyed p g).key)) ∧
    ∀ i j, core.env.guid i = core.env.guid j → i = j := by
  obtain ⟨core', hc', _, hi, _⟩ := C82_wired p g k h
  rw [hc] at hc'
  cases hc'
  have inj : ∀ i j, newXguid (p.guid i) = newXguid (p.guid j) → i = j := fun i j e => hg _ _ (hexString_inj e)
  obtain ⟨m, m2, m3, hm⟩ := hi.fresh
  rw [hi.kernelId, hi.session]
  refine ⟨fun e => by have := inj _ _ e; omega, fun n => ⟨fun e => ?_, fun e => ?_, fun hk e => ?_⟩, fun i j e => ?_⟩
  · rw [hm] at e; have := inj _ _ e; omega
  · rw [hm] at e; have := inj _ _ e; omega
  · have := m3 hk
    rw [hm] at e
    simp only [keyed, hk, if_true] at e
    have := inj _ _ e
    omega
  · rw [hm, hm] at e
    have := hg _ _ e
    omega

example : ∀ i j, samplePlatform.guid i = samplePlatform.guid j → i = j := by
  intro i j e
  simpa [samplePlatform] using congrArg List.length e

/-- C82: an interpreter that no kernel was constructed with can be used in part: what it publishes is dropped, its parent header is
empty, and a request for input is answered at once by the empty text; comms and history must not be used. -/
theorem C82_unwired (M : HistoryManager) (l : Listeners σ) (w : World σ) :
    (∀ q, (via M l {} (.pub q)).run w = (.ok .unit, w)) ∧
    (via M l {} .parentHeader).run w = (.ok (.json (.obj [])), w) ∧
    (∀ prompt pwd, (via M l {} (.input prompt pwd)).run w = (.ok (.str []), { w with input := none })) ∧
    (∀ q, ∃ s, (via M l {} (.history q)).run w = (.ub s, w)) ∧ (∀ o, ∃ s, (via M l {} (.comm o)).run w = (.ub s, w)) :=
  ⟨fun _ => rfl, rfl, fun _ _ => rfl, fun _ => ⟨_, rfl⟩, fun _ => ⟨_, rfl⟩⟩

/-- C82: with a split server a request to the shell made by `configure` blocks the constructor for ever: the shell thread, which
would answer, has not been started. -/
theorem C82_remote (p : Platform) (g : Given σ) (auth : Auth) (s : Server) (shown : Setup.Config) (d : Option (Debugger σ))
    (ha : makeXauthentication (keyed p g).scheme (keyed p g).key = .ok auth) (W : Setup.Worlds)
    (hb : g.server = makeXserverSplit W) (hs : g.server (keyed p g) = .ok s)
    (hu : s.update (keyed p g) = .ok shown) (hd : g.debugger shown g.user (newXguid (p.guid 1)) g.debuggerConfig = .ok d)
    (j : Json) (r : Except Exc Val → Prog σ DOp Unit) (hc : g.conf = .call (.toShell j) r) (text : Str)
    (hj : p.J.writeZmq .strict j = .ok text) : construct p g = .hang := by
  have hm : Steps p g auth s shown d := ⟨ha, hs, hu, hd⟩
  have hr : s.remote = true := by
    rw [hb] at hs
    unfold makeXserverSplit at hs
    cases ho : Setup.openSplit W (keyed p g) with
    | ok ss => rw [ho] at hs; cases hs; rfl
    | _ => rw [ho] at hs; cases hs
  have : (confRun p g auth s d).1 = .hang := by
    have hj' : (coreOf p g auth d).env.J.writeZmq .strict j = .ok text := hj
    simp [confRun, hc, Prog.exec, duringConfigure, hr, hj']
  unfold construct
  rw [init_made hm, this]

/-- The sample kernel with a split server and such an interpreter. -/
def askingGiven : Given Nat :=
  { sampleGiven with
    server := makeXserverSplit ⟨someWorld, someWorld, someWorld, someWorld, someWorld⟩
    conf := .call (.toShell (.obj [])) fun _ => .ret () }

example : construct samplePlatform askingGiven = .hang := by
  obtain ⟨a, ha⟩ : ∃ a, makeXauthentication (keyed samplePlatform askingGiven).scheme (keyed samplePlatform askingGiven).key = .ok a :=
    exists_ok (by decide +kernel)
  obtain ⟨s, hs⟩ : ∃ s, askingGiven.server (keyed samplePlatform askingGiven) = .ok s := exists_ok (by decide +kernel)
  have hu : ∃ c, s.update (keyed samplePlatform askingGiven) = .ok c := by
    have : (match askingGiven.server (keyed samplePlatform askingGiven) with
      | .ok s => (match s.update (keyed samplePlatform askingGiven) with | .ok _ => true | _ => false)
      | _ => false) = true := by decide +kernel
    rw [hs] at this
    revert this
    simp only
    cases s.update (keyed samplePlatform askingGiven) <;> simp
  obtain ⟨c, hu⟩ := hu
  obtain ⟨t, ht⟩ : ∃ t, samplePlatform.J.writeZmq .strict (.obj []) = .ok t := exists_ok (by decide +kernel)
  exact C82_remote samplePlatform askingGiven a s c none ha _ rfl hs hu rfl (.obj []) _ rfl t ht

/-! ## C83 -/

theorem held_made {k : Kern σ} {s : Server} (hs : k.server = some s)
    (hh : 0 < s.held) : 0 < heldIn k := by
  simp only [heldIn, hs]
  omega

theorem library_held {W : Setup.Worlds} {g : Given σ} (hb : g.server = makeXserver W ∨ g.server = makeXserverSplit W)
    {c : Setup.Config} {s : Server} (hs : g.server c = .ok s) : 0 < s.held := by
  rcases hb with hb | hb <;> rw [hb] at hs
  · unfold makeXserver at hs
    cases ho : Setup.openDefault W c with
    | ok ss => rw [ho] at hs; cases hs; exact Nat.zero_lt_succ _
    | _ => rw [ho] at hs; cases hs
  · unfold makeXserverSplit at hs
    cases ho : Setup.openSplit W c with
    | ok ss => rw [ho] at hs; cases hs; exact Nat.zero_lt_succ _
    | _ => rw [ho] at hs; cases hs

/-- C83: a kernel with one of the library's servers that was constructed and never started cannot be destroyed: its context is
destroyed first and waits for the sockets of the server, which is destroyed after it. -/
theorem C83_destructor (p : Platform) (g : Given σ) (k : Kern σ) (W : Setup.Worlds) (h : construct p g = .ok k)
    (hb : g.server = makeXserver W ∨ g.server = makeXserverSplit W) : destroy g k = .hang := by
  obtain ⟨-, ⟨s, h1, h2, -⟩, -⟩ := C82_calls p g k h
  unfold destroy
  rw [if_pos (held_made h1 (library_held hb h2))]

example : ∃ k, construct samplePlatform sampleGiven = .ok k ∧ destroy sampleGiven k = .hang := by
  obtain ⟨k, hk⟩ := sampleGiven_ok
  exact ⟨k, hk, C83_destructor _ _ k _ hk (.inl rfl)⟩

/-- C83: for the same reason an exception thrown after the server was built, by `update_config`, by the builder of the debugger or
while the interpreter is configured, does not come out of the constructor, which never returns. -/
theorem C83_unwinding (p : Platform) (g : Given σ) (W : Setup.Worlds)
    (hb : g.server = makeXserver W ∨ g.server = makeXserverSplit W) (s : Server) (hs : g.server (keyed p g) = .ok s)
    (auth : Auth) (ha : makeXauthentication (keyed p g).scheme (keyed p g).key = .ok auth)
    (e : Exc) (he : ((init p g).run (Kern.new g)).1 = .exc e) : construct p g = .hang := by
  have hh : 0 < s.held := library_held hb hs
  have hk : ((init p g).run (Kern.new g)).2.server = some s := by
    rw [init_run]
    simp only [ha, hs]
    split
    · rfl
    · rfl
    · rfl
    · split <;> rfl
  unfold construct
  revert he hk
  generalize (init p g).run (Kern.new g) = x
  obtain ⟨r, k⟩ := x
  rintro rfl hk
  have : destroy g k = .hang := by
    unfold destroy heldIn
    rw [hk, if_pos (by simp only; omega)]
  simp only [this]

/-- C83, e.g.: a configuration with an address so long that an end point has more than 31 characters (cf. C66). -/
theorem C83_long (p : Platform) (g : Given σ) (W : Setup.Worlds) (ss : Setup.Sockets)
    (hb : (g.server = makeXserver W ∧ Setup.openDefault W (keyed p g) = .ok ss) ∨
      (g.server = makeXserverSplit W ∧ Setup.openSplit W (keyed p g) = .ok ss))
    (auth : Auth) (ha : makeXauthentication (keyed p g).scheme (keyed p g).key = .ok auth)
    (hl : ¬ Setup.Spec.Sockets.All ss (fun k => k.last.length ≤ 31)) : construct p g = .hang := by
  have hs : ∃ s, g.server (keyed p g) = .ok s ∧ s.update (keyed p g) = .exc .zmq := by
    rcases hb with ⟨hb, ho⟩ | ⟨hb, ho⟩
    · refine ⟨⟨Setup.updateConfig ss, false, 11⟩, ?_, C66_long ss _ hl⟩
      rw [hb]
      simp only [makeXserver, ho]
      rfl
    · refine ⟨⟨Setup.updateConfig ss, true, 14⟩, ?_, C66_long ss _ hl⟩
      rw [hb]
      simp only [makeXserverSplit, ho]
      rfl
  obtain ⟨s, h1, h2⟩ := hs
  refine C83_unwinding p g W (hb.imp And.left And.left) s h1 auth ha .zmq ?_
  rw [init_run]
  simp only [ha, h1, h2]

/-- Surroundings in which every end point can be bound. -/
def freeWorld : Setup.World where
  draw a _ _ := a
  net _ e := some e

/-- A long host name. -/
def remoteGiven : Given Nat :=
  { sampleGiven with
    config := some { Setup.Config.default with ip := lit "notebooks.department.example.org" }
    server := makeXserver ⟨freeWorld, freeWorld, freeWorld, freeWorld, freeWorld⟩ }

example : construct samplePlatform remoteGiven = .hang := by
  obtain ⟨a, ha⟩ : ∃ a, makeXauthentication (keyed samplePlatform remoteGiven).scheme (keyed samplePlatform remoteGiven).key = .ok a :=
    exists_ok (by decide +kernel)
  have ho : ∃ ss, Setup.openDefault ⟨freeWorld, freeWorld, freeWorld, freeWorld, freeWorld⟩ (keyed samplePlatform remoteGiven) =
    .ok ss := exists_ok (by decide +kernel)
  obtain ⟨ss, ho⟩ := ho
  refine C83_long samplePlatform remoteGiven _ ss (.inl ⟨rfl, ho⟩) a ha fun h => ?_
  have : (match Setup.openDefault ⟨freeWorld, freeWorld, freeWorld, freeWorld, freeWorld⟩ (keyed samplePlatform remoteGiven) with
    | .ok ss => decide (31 < ss.control.last.length)
    | _ => false) = true := by decide +kernel
  rw [ho] at this
  have := of_decide_eq_true this
  have := h.1
  omega

/-- An interpreter that throws when it is configured. -/
example : construct samplePlatform { sampleGiven with conf := .throw (.runtime "no license") } = .hang := by
  obtain ⟨s, hs⟩ : ∃ s, sampleGiven.server (keyed samplePlatform sampleGiven) = .ok s := exists_ok (by decide +kernel)
  obtain ⟨a, ha⟩ : ∃ a, makeXauthentication (keyed samplePlatform sampleGiven).scheme (keyed samplePlatform sampleGiven).key = .ok a :=
    exists_ok (by decide +kernel)
  refine C83_unwinding samplePlatform { sampleGiven with conf := .throw (.runtime "no license") } _ (.inl rfl) s hs a ha
    (.runtime "no license") (by decide +kernel)

/-- C83: exceptions thrown before there is a server, because the scheme is unknown or a socket cannot be bound, come out of the
constructor, if the destructor of the interpreter uses nothing of the kernel. -/
theorem C83_early (p : Platform) (g : Given σ) (hq : Quiet g.fin) (e : Exc)
    (h : makeXauthentication (keyed p g).scheme (keyed p g).key = .exc e ∨
      (∃ a, makeXauthentication (keyed p g).scheme (keyed p g).key = .ok a) ∧ g.server (keyed p g) = .exc e) :
    construct p g = .exc e := by
  unfold construct
  rw [init_run]
  rcases h with h | ⟨⟨a, ha⟩, h⟩
  · simp only [h, destroy, heldIn, Kern.new, Nat.lt_irrefl, Nat.add_zero, if_false, exec_quiet _ hq]
  · simp only [ha, h, destroy, heldIn, k₁, Nat.lt_irrefl, Nat.add_zero, if_false, exec_quiet _ hq]

/-- A port that is in use. -/
example : sampleGiven.server (keyed samplePlatform { sampleGiven with config := some { Setup.Config.default with shellPort := lit "80" } })
    = .exc .zmq := by
  have : (match sampleGiven.server (keyed samplePlatform
      { sampleGiven with config := some { Setup.Config.default with shellPort := lit "80" } }) with | .exc e => e == .zmq | _ => false) =
      true := by decide +kernel
  revert this
  cases sampleGiven.server (keyed samplePlatform
    { sampleGiven with config := some { Setup.Config.default with shellPort := lit "80" } }) <;> simp

/-- C83: with a server and a debugger that hold no socket in the context, a kernel can be destroyed, and the constructor passes
exceptions on, under the same condition. -/
theorem C83_socketless (p : Platform) (g : Given σ) (hq : Quiet g.fin) (hs : ∀ c s, g.server c = .ok s → s.held = 0)
    (hd : ∀ c u i j d, g.debugger c u i j = .ok (some d) → d.held = 0) :
    (∀ k, construct p g = .ok k → destroy g k = .ok ()) ∧
    ∀ e, ((init p g).run (Kern.new g)).1 = .exc e → construct p g = .exc e := by
  have key : heldIn ((init p g).run (Kern.new g)).2 = 0 := by
    rw [init_run]
    cases ha : makeXauthentication (keyed p g).scheme (keyed p g).key with
    | exc e => rfl
    | ub e => rfl
    | hang => rfl
    | ok auth =>
      simp only
      cases h1 : g.server (keyed p g) with
      | exc e => rfl
      | ub e => rfl
      | hang => rfl
      | ok s =>
        have h0 := hs _ _ h1
        simp only
        cases hu : s.update (keyed p g) with
        | exc e => simp [heldIn, k₁, h0]
        | ub e => simp [heldIn, k₁, h0]
        | hang => simp [heldIn, k₁, h0]
        | ok shown =>
          simp only
          cases h2 : g.debugger shown g.user (newXguid (p.guid 1)) g.debuggerConfig with
          | exc e => simp [heldIn, k₂, k₁, h0]
          | ub e => simp [heldIn, k₂, k₁, h0]
          | hang => simp [heldIn, k₂, k₁, h0]
          | ok d =>
            cases d with
            | none => simp [heldIn, k₃, bindCore, k₂, k₁, h0]
            | some d => simp [heldIn, k₃, bindCore, k₂, k₁, h0, hd _ _ _ _ _ h2]
  constructor
  · intro k hk
    rw [construct_ok.1 hk] at key
    simp only [destroy, key, Nat.lt_irrefl, if_false, exec_quiet _ hq]
  · intro e he
    unfold construct
    revert he key
    generalize (init p g).run (Kern.new g) = x
    obtain ⟨r, k⟩ := x
    intro key he
    cases he
    simp only [destroy, show heldIn k = 0 from key, Nat.lt_irrefl, if_false, exec_quiet _ hq]

example : Quiet plainGiven.fin ∧ (∀ c s, plainGiven.server c = .ok s → s.held = 0) ∧
    (∀ c u i j d, plainGiven.debugger c u i j = .ok (some d) → d.held = 0) :=
  ⟨.ret _, fun _ _ h => by cases h; rfl, fun _ _ _ _ _ h => by cases h⟩

/-- C83: this condition is needed: an interpreter that publishes from its destructor uses the core, which is destroyed before
it. -/
theorem C83_dangling (p : Platform) (g : Given σ) (k : Kern σ) (h : construct p g = .ok k) (hh : heldIn k = 0) (o : Op)
    (r : Except Exc Val → Prog σ Op Unit) (hf : g.fin = .call o r) : ∃ s, destroy g k = .ub s := by
  obtain ⟨auth, s, shown, d, hm, hr, hk⟩ := init_ok (construct_ok.1 h)
  have hp : k.bindings.publisher.isSome = true ∧ k.bindings.stdin.isSome = true ∧ k.bindings.parentHeader.isSome = true := by
    rw [hk]; exact ⟨rfl, rfl, rfl⟩
  cases o <;> exact ⟨_, by simp [destroy, hh, hf, Prog.exec, afterwards, hp]; rfl⟩

example : ∃ k, construct samplePlatform plainGiven = .ok k ∧ heldIn k = 0 := by
  obtain ⟨k, hk⟩ := plainGiven_ok
  refine ⟨k, hk, ?_⟩
  have : (match construct samplePlatform plainGiven with | .ok k => heldIn k | _ => 1) = 0 := by decide +kernel
  rw [hk] at this
  exact this

end Xeus
