import Verif.Kernels.Props

/-!
# The programs that come with the library: the property C96

Only the property theorems and the `example`s that instantiate their hypotheses.
-/

namespace Xeus

open Spec Kernels Build Build.Spec Setup.Spec

/-! ## C96 -/

/-- C96: without arguments the program reads `connection.json`; with two or more, the second is the name of the file; and with exactly
one (or without even its own name), its behaviour is undefined. -/
theorem C96_file (argv : List Str) :
    (∀ name, argv = [name] → fileName argv = .ok (lit "connection.json")) ∧
    (∀ name flag file rest, argv = name :: flag :: file :: rest → fileName argv = .ok file) ∧
    ((∃ why, fileName argv = .ub why) ↔ argv = [] ∨ ∃ name file, argv = [name, file]) := by
  match argv with
  | [] => exact ⟨fun _ h => by (cases h), fun _ _ _ _ h => by (cases h), by simp [fileName]⟩
  | [n] => exact ⟨fun _ _ => rfl, fun _ _ _ _ h => by (cases h), by simp [fileName]⟩
  | [n, f] => exact ⟨fun _ h => by (cases h), fun _ _ _ _ h => by (cases h), by simp [fileName]⟩
  | n :: x :: f :: r =>
    exact ⟨fun _ h => by (cases h), fun _ _ _ _ h => by (cases h; simp [fileName]), by simp [fileName]⟩

example : fileName [lit "kernel", lit "-f", lit "k.json"] = .ok (lit "k.json") ∧ ∃ why, fileName [lit "kernel", lit "k.json"] = .ub why :=
  ⟨rfl, _, rfl⟩

/-- C96: so calling any of the programs with the name of the connection file only is undefined behaviour. -/
theorem C96_one_argument_refuted (p : Platform) (h : Host) (name file : Str) :
    ¬ (∀ why, demoMain p h [name, file] ≠ .ub why) ∧ ¬ (∀ why, testMain p h [name, file] ≠ .ub why) ∧
    ¬ (∀ why, testMainSplit p h [name, file] ≠ .ub why) :=
  ⟨fun hc => hc _ rfl, fun hc => hc _ rfl, fun hc => hc _ rfl⟩

/-- C96: the user is the one of the password database, else the one in the environment. -/
theorem C96_user (h : Host) : (∀ n, h.pwName = some n → getUserName h = n) ∧
    (∀ n, h.pwName = none → h.userVar = some n → getUserName h = n) ∧
    (h.pwName = none → h.userVar = none → getUserName h = lit "unspecified user") := by
  refine ⟨fun n h1 => ?_, fun n h1 h2 => ?_, fun h1 h2 => ?_⟩ <;> simp [getUserName, *]

example : getUserName demoHost = lit "user" := rfl

/-- C96: a program gets a kernel if it is told a readable configuration with a known signature scheme (or none), whose addresses can be
bound. -/
theorem C96_succeeds (p : Platform) (h : Host) (hr : ∀ f doc, h.read f = some doc → doc.canon = true) (argv : List Str)
    (file : Str) (hf : (∃ name, argv = [name] ∧ file = lit "connection.json") ∨ ∃ name flag rest, argv = name :: flag :: file :: rest)
    (doc : Json) (cfg : Setup.Config) (hdoc : h.read file = some doc)
    (hd : Describes doc cfg)
    (auth : Auth) (key : Str) (hkey : cfg.key = [] ∧ key = newXguid (p.guid 2) ∨ cfg.key ≠ [] ∧ key = cfg.key)
    (ha : makeXauthentication cfg.scheme key = .ok auth) (s : Setup.Sockets) (shown : Setup.Config) :
    (Setup.openDefault h.net { cfg with key := key } = .ok s → Setup.updateConfig s { cfg with key := key } = .ok shown →
      (∃ k, demoMain p h argv = .ok k) ∧ ∃ k, testMain p h argv = .ok k) ∧
    (Setup.openSplit h.net { cfg with key := key } = .ok s → Setup.updateConfig s { cfg with key := key } = .ok shown →
      ∃ k, testMainSplit p h argv = .ok k) := by
  have h1 : fileName argv = .ok file := by
    rcases hf with ⟨name, rfl, rfl⟩ | ⟨name, flag, rest, rfl⟩
    · exact (C96_file _).1 _ rfl
    · exact (C96_file _).2.1 _ _ _ _ rfl
  have h2 : Setup.loadConfiguration h.read file = .ok cfg := (C65_load _ hr _ _).2 ⟨doc, hdoc, hd⟩
  have hk : ∀ server I conf, keyed p (givenFor h cfg server I conf) = { cfg with key := key } := by
    intro server I conf
    show (if cfg.key = [] then { cfg with key := newXguid (p.guid 2) } else cfg) = _
    rcases hkey with ⟨h1, rfl⟩ | ⟨h1, rfl⟩
    · rw [if_pos h1]
    · rw [if_neg h1]
  have mk : ∀ (server : Setup.Worlds → Setup.Config → Res Server) (I : Interp Unit) (conf : Prog Unit DOp Unit) (s : Server),
      server h.net { cfg with key := key } = .ok s → s.update { cfg with key := key } = .ok shown →
      (∀ core : Core Unit, ((conf.exec (duringConfigure core s.remote)).run (World.initial () [] [])).1 = .ok ()) →
      ∃ k, program p h server I conf argv = .ok k := by
    intro server I conf s hs hu hc
    obtain ⟨k, hk'⟩ := C82_succeeds p (givenFor h cfg server I conf) auth s shown none (by rw [hk]; exact ha) (by rw [hk]; exact hs)
      (by rw [hk]; exact hu) rfl fun core _ _ => hc core
    exact ⟨k, program_ok.2 ⟨file, cfg, h1, h2, hk'⟩⟩
  refine ⟨fun ho hu => ⟨?_, ?_⟩, fun ho hu => ?_⟩
  · exact mk _ _ _ ⟨Setup.updateConfig s, false, 11⟩ (by simp only [makeXserver, ho]; rfl) hu fun _ => rfl
  · exact mk _ _ _ ⟨Setup.updateConfig s, false, 11⟩ (by simp only [makeXserver, ho]; rfl) hu fun _ => rfl
  · exact mk _ _ _ ⟨Setup.updateConfig s, true, 14⟩ (by simp only [makeXserverSplit, ho]; rfl) hu fun _ => rfl

/-- A host where all ports are free. -/
example : (∀ f doc, demoHost.read f = some doc → doc.canon = true) ∧ demoHost.read (lit "k.json") = some connectionDoc ∧
    Describes connectionDoc connection ∧ connection.key ≠ [] ∧ (∃ auth, makeXauthentication connection.scheme connection.key = .ok auth) ∧
    (∃ s shown, Setup.openDefault demoHost.net connection = .ok s ∧ Setup.updateConfig s connection = .ok shown) ∧
    (∃ s shown, Setup.openSplit demoHost.net connection = .ok s ∧ Setup.updateConfig s connection = .ok shown) := by
  refine ⟨fun f doc h => ?_, by decide +kernel, (Setup.configOf_iff (by decide +kernel) _).1 (by decide +kernel), by decide,
    exists_ok (by decide +kernel), ?_, ?_⟩
  · simp only [demoHost] at h
    split at h
    · cases h; decide +kernel
    · cases h
  · obtain ⟨s, hs⟩ := exists_ok (r := Setup.openDefault demoHost.net connection) (by decide +kernel)
    obtain ⟨c, hc⟩ := exists_ok (r := (Setup.openDefault demoHost.net connection).bind fun s => Setup.updateConfig s connection) (by decide +kernel)
    rw [hs] at hc
    exact ⟨s, c, hs, hc⟩
  · obtain ⟨s, hs⟩ := exists_ok (r := Setup.openSplit demoHost.net connection) (by decide +kernel)
    obtain ⟨c, hc⟩ := exists_ok (r := (Setup.openSplit demoHost.net connection).bind fun s => Setup.updateConfig s connection) (by decide +kernel)
    rw [hs] at hc
    exact ⟨s, c, hs, hc⟩

/-- C96: it gets one only if it is told a readable configuration. -/
theorem C96_needs (p : Platform) (h : Host) (hr : ∀ f doc, h.read f = some doc → doc.canon = true) (argv : List Str) (k : Kern Unit)
    (hk : demoMain p h argv = .ok k ∨ testMain p h argv = .ok k ∨ testMainSplit p h argv = .ok k) :
    ∃ file doc cfg, ((∃ name, argv = [name] ∧ file = lit "connection.json") ∨ ∃ name flag rest, argv = name :: flag :: file :: rest) ∧
      h.read file = some doc ∧ Describes doc cfg := by
  obtain ⟨file, cfg, h1, h2⟩ : ∃ file cfg, fileName argv = .ok file ∧ Setup.loadConfiguration h.read file = .ok cfg := by
    rcases hk with hk | hk | hk <;> obtain ⟨file, cfg, h1, h2, _⟩ := program_ok.1 hk <;> exact ⟨file, cfg, h1, h2⟩
  obtain ⟨doc, h3, h4⟩ := (C65_load _ hr _ _).1 h2
  refine ⟨file, doc, cfg, ?_, h3, h4⟩
  match argv with
  | [] => simp [fileName] at h1
  | [n] => simp [fileName] at h1; exact .inl ⟨n, rfl, h1.symm⟩
  | [n, f] => simp [fileName] at h1
  | n :: x :: f :: r => simp [fileName] at h1; exact .inr ⟨n, x, r, by rw [h1]⟩

example : ∃ k, testMainSplit samplePlatform demoHost [lit "kernel", lit "-f", lit "k.json"] = .ok k := by
  obtain ⟨k, _, h, _⟩ := testSplit_ok
  exact ⟨k, h⟩

/-- C96: the kernel of the example program is one with the example interpreter, in whose name messages are sent by the user; it is
ready to serve, has sent nothing, knows no comm target, and its history is empty. -/
theorem C96_demo (p : Platform) (h : Host) (argv : List Str) (k : Kern Unit) (hk : demoMain p h argv = .ok k) (hJ : LawfulCodec p.J)
    (hR : LawfulRegex p.R) (hu : Utf8 (getUserName h)) (hn : ∀ n, Utf8 (p.now n)) :
    ∃ core, k.core = some core ∧ core.I = demo ∧ Sane core.env ∧ core.env.user = getUserName h ∧ Wired core k ∧
      ∃ st : Start Unit, st.w = k.w ∧ Blank st ∧ targetNames st = [] := by
  obtain ⟨core, h1, h2, h3, _, h4, h5, h6, st, hst⟩ := program_core rfl hk hJ hR hu hn
  have hw : k.w = World.initial () [] [] := (congrArg Prod.snd h6).symm
  rw [hw] at hst
  exact ⟨core, h1, h2, h3, h4, h5, st, hst.trans hw.symm, by simp [Blank, hst, World.initial, Comms.empty],
    by simp [targetNames, hst, World.initial, Comms.empty]⟩

example : (∃ k, demoMain samplePlatform demoHost [lit "kernel"] = .ok k) ∧ LawfulCodec samplePlatform.J ∧ LawfulRegex samplePlatform.R ∧ Utf8 (getUserName demoHost) ∧ (∀ n, Utf8 (samplePlatform.now n)) := by
  obtain ⟨k, _, h, _⟩ := demo_ok
  exact ⟨⟨k, h⟩, stdCodec_lawful, stdRegex_lawful, by show Utf8 (lit "user"); exact utf8_lit (by decide), sampleEnv_sane.now rfl⟩

/-- C96: that of the test programs has the test interpreter and knows the target `test_target`. -/
theorem C96_test (p : Platform) (h : Host) (argv : List Str) (k : Kern Unit) (hk : testMain p h argv = .ok k ∨ testMainSplit p h argv = .ok k)
    (hJ : LawfulCodec p.J) (hR : LawfulRegex p.R) (hu : Utf8 (getUserName h)) (hn : ∀ n, Utf8 (p.now n)) :
    ∃ core, k.core = some core ∧ core.I = testing ∧ Sane core.env ∧ core.env.user = getUserName h ∧ Wired core k ∧
      ∃ st : Start Unit, st.w = k.w ∧ Blank st ∧ targetNames st = [lit "test_target"] := by
  obtain ⟨core, h1, h2, h3, _, h4, h5, h6, st, hst⟩ : ∃ core, k.core = some core ∧ core.I = testing ∧ Sane core.env ∧ core.env.eh = .strict ∧
      core.env.user = getUserName h ∧ Wired core k ∧
      (configure core.env core.I testConf).run (World.initial () [] []) = (.ok (), k.w) ∧
      (∃ st : Start Unit, st.w = { k.w with out := [] }) := by
    rcases hk with hk | hk <;> exact program_core rfl hk hJ hR hu hn
  obtain ⟨acts, ha⟩ := testConf_run core.env core.I []
  rw [ha] at h6
  have hw := (congrArg Prod.snd h6).symm
  simp only at hw
  refine ⟨core, h1, h2, h3, h4, h5, st, ?_, ?_, ?_⟩
  · rw [hst, hw]; rfl
  · rw [hw] at hst; simp [Blank, hst, World.initial]
  · rw [hw] at hst; simp [targetNames, hst]

example : (∃ k, testMain samplePlatform demoHost [lit "kernel", lit "-f", lit "k.json"] = .ok k) ∧
    ∃ k, testMainSplit samplePlatform demoHost [lit "kernel", lit "-f", lit "k.json"] = .ok k := by
  obtain ⟨k, _, h, _⟩ := test_ok
  obtain ⟨k', _, h', _⟩ := testSplit_ok
  exact ⟨⟨k, h⟩, k', h'⟩

/-- C96: in such a kernel, a request to open a comm of that target is undefined behaviour from the first moment on. -/
theorem C96_test_comm (p : Platform) (h : Host) (argv : List Str) (k : Kern Unit) (hk : testMain p h argv = .ok k ∨ testMainSplit p h argv = .ok k)
    (hJ : LawfulCodec p.J) (hR : LawfulRegex p.R) (hu : Utf8 (getUserName h)) (hn : ∀ n, Utf8 (p.now n)) (core : Core Unit)
    (hcore : k.core = some core) (q : Multipart) (m : XMessage) (c : Chan) (ha : Accepted core.env.C core.env.J core.env.auth q m)
    (hr : IsReq m .commOpen) (id : Str) (h1 : m.body.content.find? (lit "target_name") = some (.str (lit "test_target")))
    (h2 : m.body.content.find? (lit "comm_id") = some (.str id)) (h3 : id.length ≤ 55) :
    ∃ why w', (dispatch core.env core.I q c).run k.w = (.ub why, w') := by
  obtain ⟨core', g1, g2, g3, _, _, _, g6, _⟩ : ∃ core, k.core = some core ∧ core.I = testing ∧ Sane core.env ∧ core.env.eh = .strict ∧
      core.env.user = getUserName h ∧ Wired core k ∧
      (configure core.env core.I testConf).run (World.initial () [] []) = (.ok (), k.w) ∧
      (∃ st : Start Unit, st.w = { k.w with out := [] }) := by
    rcases hk with hk | hk <;> exact program_core rfl hk hJ hR hu hn
  rw [hcore] at g1
  cases g1
  obtain ⟨acts, hacts⟩ := testConf_run core.env core.I []
  rw [hacts] at g6
  have hw := (congrArg Prod.snd g6).symm
  simp only at hw
  rw [g2]
  exact C95_test_comm core.env g3 q m c ha k.w hr id 0 ⟨lit "test_target", some 0, true⟩ h1 h2 h3 (by rw [hw]; rfl) (by rw [hw]; rfl) rfl rfl

example : ∃ k core m, testMain samplePlatform demoHost [lit "kernel", lit "-f", lit "k.json"] = .ok k ∧ k.core = some core ∧
    Accepted core.env.C core.env.J core.env.auth (sentTo core.env m) m ∧ IsReq m .commOpen ∧
    m.body.content.find? (lit "target_name") = some (.str (lit "test_target")) ∧ m.body.content.find? (lit "comm_id") = some (.str (lit "c1")) := by
  obtain ⟨k, core, h1, h2, h3, _⟩ := test_ok
  refine ⟨k, core, reqFrom "a" "m1" "comm_open" (.obj [(lit "comm_id", .str (lit "c1")), (lit "target_name", .str (lit "test_target"))]), h1, h2, ?_, by unfold IsReq; decide +kernel,
    by decide +kernel, by decide +kernel⟩
  rw [h3]
  exact (C03_accepted_iff ..).1 (by decide +kernel)

/-- C96: the example program serves: in every fair execution of its server in which no shutdown is requested, every request with
documented fields is eventually sent exactly one reply, whichever requests come before, after or at the same time. -/
theorem C96_demo_serves (p : Platform) (h : Host) (argv : List Str) (k : Kern Unit) (hk : demoMain p h argv = .ok k) (hJ : LawfulCodec p.J)
    (hR : LawfulRegex p.R) (hu : Utf8 (getUserName h)) (hn : ∀ n, Utf8 (p.now n)) (core : Core Unit) (hcore : k.core = some core)
    (st : Start Unit) (hst : st.w = k.w) (e : Execution (Main.Step core.env core.I)) (h0 : e.state 0 = Main.init st) (hf : Fair e .main)
    (ht : ∀ i, Traffic core.env st (arrivals (e.state i).log)) (hns : ∀ i, ∀ q ∈ arrivals (e.state i).log, ¬ Shuts core.env q) (n j : Nat)
    (c : Chan) (q : Multipart) (hq : (arrivedOn c (e.state n).log)[j]? = some q) (m : XMessage)
    (ha : Accepted core.env.C core.env.J core.env.auth q m) (r : Req) (hr : IsReq m r) (hd : Documented m.body.content r) :
    ∃ i, n ≤ i ∧ Replied core.env (e.state i).log c j q m r [] := by
  obtain ⟨core', g1, g2, g3, _, _, st', h1, h2, _⟩ := C96_demo p h argv k hk hJ hR hu hn
  rw [hcore] at g1
  cases g1
  haveI := program_stock hk hR core hcore
  have hb : Blank st := by
    unfold Blank
    rw [hst, ← h1]
    exact h2
  have hsafe : Plain core.env.eh core.I ∧ Answers core.env.eh core.I ∧ Cheerful core.I := by rw [g2]; exact C95_demo_safe _
  exact C94_always core.env g3 core.I hsafe.1 hsafe.2.1 hsafe.2.2 st hb e h0 hf ht hns n j c q hq m ha r hr hd

example : ∃ k core st, demoMain samplePlatform demoHost [lit "kernel"] = .ok k ∧ k.core = some core ∧ st.w = k.w ∧
    ∃ (e : Execution (Main.Step core.env core.I)) (n : Nat), e.state 0 = Main.init st ∧ Fair e .main ∧
      (∀ i, Traffic core.env st (arrivals (e.state i).log)) ∧ (∀ i, ∀ q ∈ arrivals (e.state i).log, ¬ Shuts core.env q) ∧
      (arrivedOn .shell (e.state n).log)[0]? = some (sentTo core.env cell) ∧
      Accepted core.env.C core.env.J core.env.auth (sentTo core.env cell) cell ∧ IsReq cell .execute ∧ Documented cell.body.content .execute := by
  obtain ⟨k, core, h1, h2, h3, h4, h5, _⟩ := demo_ok
  refine ⟨k, core, Start.fresh (), h1, h2, h5.symm, ?_⟩
  rw [h3, h4]
  obtain ⟨e, n, g1, g2, g3⟩ := demo_day
  exact ⟨e, n, g1, g2, g3.traffic, g3.quiet, g3.shell, g3.cell, cell_req⟩

/-- C96: so do the test programs, with one thread. -/
theorem C96_test_serves (p : Platform) (h : Host) (argv : List Str) (k : Kern Unit) (hk : testMain p h argv = .ok k) (hJ : LawfulCodec p.J)
    (hR : LawfulRegex p.R) (hu : Utf8 (getUserName h)) (hn : ∀ n, Utf8 (p.now n)) (core : Core Unit) (hcore : k.core = some core)
    (st : Start Unit) (hst : st.w = k.w) (e : Execution (Main.Step core.env core.I)) (h0 : e.state 0 = Main.init st) (hf : Fair e .main)
    (ht : ∀ i, Traffic core.env st (arrivals (e.state i).log)) (hns : ∀ i, ∀ q ∈ arrivals (e.state i).log, ¬ Shuts core.env q) (n j : Nat)
    (c : Chan) (q : Multipart) (hq : (arrivedOn c (e.state n).log)[j]? = some q) (m : XMessage)
    (ha : Accepted core.env.C core.env.J core.env.auth q m) (r : Req) (hr : IsReq m r) (hd : Documented m.body.content r) :
    ∃ i, n ≤ i ∧ Replied core.env (e.state i).log c j q m r [] := by
  obtain ⟨core', g1, g2, g3, _, _, st', h1, h2, _⟩ := C96_test p h argv k (.inl hk) hJ hR hu hn
  rw [hcore] at g1
  cases g1
  haveI := program_stock hk hR core hcore
  have hb : Blank st := by
    unfold Blank
    rw [hst, ← h1]
    exact h2
  have hsafe : Plain core.env.eh core.I ∧ Answers core.env.eh core.I ∧ Cheerful core.I := by rw [g2]; exact C95_test_safe _
  exact C94_always core.env g3 core.I hsafe.1 hsafe.2.1 hsafe.2.2 st hb e h0 hf ht hns n j c q hq m ha r hr hd

example : ∃ k core st, testMain samplePlatform demoHost [lit "kernel", lit "-f", lit "k.json"] = .ok k ∧ k.core = some core ∧ st.w = k.w ∧
    ∃ (e : Execution (Main.Step core.env core.I)) (n : Nat), e.state 0 = Main.init st ∧ Fair e .main ∧
      (∀ i, Traffic core.env st (arrivals (e.state i).log)) ∧ (∀ i, ∀ q ∈ arrivals (e.state i).log, ¬ Shuts core.env q) ∧
      (arrivedOn .shell (e.state n).log)[0]? = some (sentTo core.env cell) ∧
      Accepted core.env.C core.env.J core.env.auth (sentTo core.env cell) cell ∧ IsReq cell .execute ∧ Documented cell.body.content .execute := by
  obtain ⟨k, core, h1, h2, h3, h4, h5, _⟩ := test_ok
  refine ⟨k, core, testStart, h1, h2, h5.symm, ?_⟩
  rw [h3, h4]
  obtain ⟨e, n, g1, g2, g3⟩ := test_day
  exact ⟨e, n, g1, g2, g3.traffic, g3.quiet, g3.shell, g3.cell, cell_req⟩

/-- C96: and with two, whichever of them is the main thread. -/
theorem C96_test_split_serves (p : Platform) (h : Host) (argv : List Str) (k : Kern Unit) (hk : testMainSplit p h argv = .ok k)
    (hJ : LawfulCodec p.J) (hR : LawfulRegex p.R) (hu : Utf8 (getUserName h)) (hn : ∀ n, Utf8 (p.now n)) (core : Core Unit)
    (hcore : k.core = some core) (st : Start Unit) (hst : st.w = k.w) (e : Execution (Split.Step core.env core.I))
    (h0 : e.state 0 = Split.init st) (hfs : Fair e .shell) (hfc : Fair e .control)
    (ht : ∀ i, Traffic core.env st (arrivals (e.state i).log)) (hns : ∀ i, ∀ q ∈ arrivals (e.state i).log, ¬ Shuts core.env q) (n j : Nat)
    (c : Chan) (q : Multipart) (hq : (arrivedOn c (e.state n).log)[j]? = some q) (m : XMessage)
    (ha : Accepted core.env.C core.env.J core.env.auth q m) (r : Req) (hr : IsReq m r) (hd : Documented m.body.content r) :
    ∃ i, n ≤ i ∧ Replied core.env (e.state i).log c j q m r [] := by
  obtain ⟨core', g1, g2, g3, _, _, st', h1, h2, _⟩ := C96_test p h argv k (.inr hk) hJ hR hu hn
  rw [hcore] at g1
  cases g1
  haveI := program_stock hk hR core hcore
  have hb : Blank st := by
    unfold Blank
    rw [hst, ← h1]
    exact h2
  have hsafe : Plain core.env.eh core.I ∧ Answers core.env.eh core.I ∧ Cheerful core.I := by rw [g2]; exact C95_test_safe _
  exact C94_split_always core.env g3 core.I hsafe.1 hsafe.2.1 hsafe.2.2 st hb e h0 hfs hfc ht hns n j c q hq m ha r hr hd

example : ∃ k core st, testMainSplit samplePlatform demoHost [lit "kernel", lit "-f", lit "k.json"] = .ok k ∧ k.core = some core ∧ st.w = k.w ∧
    ∃ (e : Execution (Split.Step core.env core.I)) (n : Nat), e.state 0 = Split.init st ∧ Fair e .shell ∧ Fair e .control ∧
      (∀ i, Traffic core.env st (arrivals (e.state i).log)) ∧ (∀ i, ∀ q ∈ arrivals (e.state i).log, ¬ Shuts core.env q) ∧
      (arrivedOn .shell (e.state n).log)[0]? = some (sentTo core.env cell) ∧
      Accepted core.env.C core.env.J core.env.auth (sentTo core.env cell) cell ∧ IsReq cell .execute ∧ Documented cell.body.content .execute := by
  obtain ⟨k, core, h1, h2, h3, h4, h5, _⟩ := testSplit_ok
  refine ⟨k, core, testStart, h1, h2, h5.symm, ?_⟩
  rw [h3, h4]
  obtain ⟨e, n, g1, g2, g2', g3⟩ := split_day
  exact ⟨e, n, g1, g2, g2', g3.traffic, g3.quiet, g3.shell, g3.cell, cell_req⟩

end Xeus
