import Verif.Server.Gather
import Verif.Server.OrderlyProps

/-!
# What a client gathers about its request
-/

namespace Xeus

open Spec

variable {σ : Type}

/-! ## C110: what idle says -/

/-- C110: as long as nothing was dropped, once the notification that the default server is idle again, about a header, has been passed on to clients,
an accepted message with this header has been handled completely: everything done for it, from busy to idle, is among what was done up to then, and
all that is published for it has been passed on. -/
theorem C110_idle (env : Env) (hs : Sane env) (I : Interp σ) (st : Start σ) (s : Main σ) (h : Main.Reach env I st s) (hd : s.dropped = 0) :
    ∃ o, o <+: eventsIn s.log ∧ wiresOf o = s.pub.passedOf () ∧
      ∀ hdr, (stateIs "idle", hdr) ∈ statusesIn o → Concluded env ((handledIn s.log).map fun x => (x.2, x.1)) (eventsIn s.log) o hdr := by
  obtain ⟨o, h1, h2⟩ := prefix_pubsOf (wiresOf_eq _ ▸ C48_prefix env I st s h hd)
  rw [← wiresOf_eq] at h2
  rw [← Main.events_reach h] at h1
  exact ⟨o, h1, h2, fun _ hi => concluded_progress (C102_progress env hs I st s h) h1 hi⟩

/-- Three idle notifications were passed on, the publications of a fourth message not yet. -/
example : Main.Reach sampleEnv sampleInterp 0 Main.day ∧ Main.day.dropped = 0 ∧
    ((statusesIn ((eventsIn Main.day.log).take 12)).filter fun x => x.1 = stateIs "idle").length = 3 ∧
    (wiresOf ((eventsIn Main.day.log).take 12)).length ≤ (Main.day.pub.passedOf ()).length ∧
    (Main.day.pub.passedOf ()).length < (wiresOf (eventsIn Main.day.log)).length :=
  ⟨Main.day_reach, by decide +kernel, by decide +kernel, by decide +kernel, by decide +kernel⟩

/-- C110: of a split server, the same of what is passed on from each socket and done by the thread of that channel, whatever the other thread
does. -/
theorem C110_split_idle (env : Env) (hs : Sane env) (I : Interp σ) (hv : SendsValues I) (st : Start σ) (s : Duo σ) (h : Duo.Reach env I st s)
    (k : Chan) (hk : s.dropped k = 0) :
    ∃ l, l <+: actsIn (served s.log) ∧ wiresOn k (allEvents l) = s.pub.passedOf k ∧
      ∀ hdr, (stateIs "idle", hdr) ∈ statusesIn ((allEvents l).filter (throughSocket k)) →
        Concluded env ((tookBy k (actsIn (served s.log))).map fun q => (q, k)) (eventsOf k (actsIn (served s.log))) (eventsOf k l) hdr := by
  have hr := Duo.abs_reach (sound_of hs hv) h
  have hc := (Split.kinv_reach hr).conc
  have h1 := (C48_split env I st _ hr k).2 hk
  have h2 : s.pub.passedOf k <+: pubsOn k (Duo.abs env I s).c.w.out := ⟨_, by rw [← wiresOn_eq, ← h1, List.append_assoc]; rfl⟩
  obtain ⟨o, h3, h4⟩ := prefix_pubsOn h2
  have h5 : allEvents (actsIn (served s.log)) = (Duo.abs env I s).c.w.out := by rw [served_eq]; exact out_reach hc
  rw [← h5] at h3
  obtain ⟨l, h6, h7⟩ := prefix_acts h3
  refine ⟨l, h6, by rw [h7, wiresOn_eq]; exact h4, fun hdr hi => concluded_progress (C102_thread env hs I hv st s h k) (eventsOf_prefix h6) ?_⟩
  rwa [statuses_socket] at hi
  intro t e he
  exact status_progress_socket (C102_thread env hs I hv st s h t) e ((eventsOf_prefix h6).subset he)

/-- All idle notifications of the control thread and those of the shell thread were passed on. -/
example : Duo.Reach sampleEnv askInterp 0 Duo.day ∧ SendsValues askInterp ∧ Duo.day.dropped .control = 0 ∧ Duo.day.dropped .shell = 0 ∧
    (Duo.day.pub.passedOf .control).length = (wiresOn .control (allEvents (actsIn (served Duo.day.log)))).length ∧
    ((statusesIn ((allEvents (actsIn (served Duo.day.log))).filter (throughSocket .control))).filter fun x => x.1 = stateIs "idle").length = 3 :=
  ⟨Duo.reach_choose _, askInterp_sends, by decide +kernel, by decide +kernel, by decide +kernel, by decide +kernel⟩

/-! ## C110: what names the request -/

/-- C110: while no message is being handled, what the default server has published is credited to messages as described by `Credited`. -/
theorem C110_credited (env : Env) (hs : Sane env) (I : Interp σ) (st : Start σ) (s : Main σ) (h : Main.Reach env I st s) (hi : Idle s) :
    ∃ lat, Credited env (handledIn s.log) lat (eventsIn s.log) := by
  obtain ⟨lat, _, h1⟩ := serial_credited hs (C78_serial env I st s h hi)
  rw [Main.events_reach h]
  exact ⟨lat, h1⟩

/-- C110: a client that gathers the publications that name the header of its request gets precisely those made through the channel of the
request while it was handled, in their order, and, of a request on the shell channel that does not ask for a shutdown or an interruption, all that was
published meanwhile. Provided that no other accepted message has this header, and that another message of its own channel came before messages of
the other channel that publish under its header. -/
theorem C110_gather (env : Env) (hs : Sane env) (I : Interp σ) (st : Start σ) (s : Main σ) (h : Main.Reach env I st s) (hi : Idle s)
    (a b : List (Chan × Multipart)) (c : Chan) (q : Multipart) (m : XMessage) (hh : handledIn s.log = a ++ (c, q) :: b)
    (ha : Accepted env.C env.J env.auth q m) (h0 : m.body.header ≠ .obj []) (hu : ∀ x ∈ a ++ b, ¬ HasHeader env m.body.header x.2)
    (hb : Undisturbed env c b) :
    ∃ es₁ blk es₂, eventsIn s.log = es₁ ++ blk ++ es₂ ∧ Transcript env (a.map fun x => (x.2, x.1)) es₁ ∧ Block env m c blk ∧
      Transcript env (b.map fun x => (x.2, x.1)) es₂ ∧ about m.body.header (eventsIn s.log) = publishedOn c blk ∧
      (c = .shell → ¬ IsReq m .shutdown → ¬ IsReq m .interrupt → publishedOn c blk = published blk) := by
  obtain ⟨lat, h1⟩ := C110_credited env hs I st s h hi
  rw [hh] at h1
  exact (credited_gather h1 ha h0 hu hb).2.2

/-- Of three requests, the first is an execution that publishes its input and an output between busy and idle. -/
example : ∃ (s : Main Nat) (b : List (Chan × Multipart)) (q : Multipart) (m : XMessage), Main.Reach sampleEnv sampleInterp 0 s ∧ Idle s ∧
    handledIn s.log = [] ++ (.shell, q) :: b ∧ b.length = 2 ∧ Accepted sampleEnv.C sampleEnv.J sampleEnv.auth q m ∧ m.body.header ≠ .obj [] ∧
    (∀ x ∈ b, ¬ HasHeader sampleEnv m.body.header x.2) ∧ Undisturbed sampleEnv .shell b ∧ IsReq m .execute ∧
    (about m.body.header (eventsIn s.log)).length = 4 ∧ (published (eventsIn s.log)).length = 10 := by
  refine ⟨Main.countTurns.foldl (Main.choose sampleEnv sampleInterp) (Main.init 0), _, _,
    reqFrom "a" "m1" "execute_request" (.obj [(lit "code", .str (lit "1"))]), Main.reach_choose _, ⟨?_, ?_⟩,
    (show _ = [] ++ (Chan.shell, wireOf (reqFrom "a" "m1" "execute_request" (.obj [(lit "code", .str (lit "1"))]))) ::
      [(.shell, wireOf (reqFrom "a" "m2" "kernel_info_request" (.obj []))),
       (.shell, wireOf (reqFrom "a" "m3" "execute_request" (.obj [(lit "code", .str (lit "2"))])))] from by decide +kernel), rfl,
    sample_accepted (by decide +kernel), by decide +kernel, ?_, ?_, rfl, by decide +kernel, by decide +kernel⟩
  · have : (Main.countTurns.foldl (Main.choose sampleEnv sampleInterp) (Main.init 0)).pc = .polling := by decide +kernel
    intro rs; rw [this]; simp
  · have : (Main.countTurns.foldl (Main.choose sampleEnv sampleInterp) (Main.init 0)).pc = .polling := by decide +kernel
    rw [this]; simp
  · rintro x hx ⟨m, h1, h2⟩
    simp only [List.mem_cons, List.not_mem_nil, or_false] at hx
    rcases hx with rfl | rfl
    · cases accepted_unique (sample_accepted (m := reqFrom "a" "m2" "kernel_info_request" (.obj [])) (by decide +kernel)) h1
      revert h2
      decide +kernel
    · cases accepted_unique (sample_accepted (m := reqFrom "a" "m3" "execute_request" (.obj [(lit "code", .str (lit "2"))])) (by decide +kernel)) h1
      revert h2
      decide +kernel
  · intro a c' q r m h1 h2
    have : (c', q) ∈ ([(.shell, wireOf (reqFrom "a" "m2" "kernel_info_request" (.obj []))),
       (.shell, wireOf (reqFrom "a" "m3" "execute_request" (.obj [(lit "code", .str (lit "2"))])))] : List (Chan × Multipart)) := by rw [h1]; simp
    simp only [List.mem_cons, Prod.mk.injEq, List.not_mem_nil, or_false] at this
    rcases this with ⟨h3, _⟩ | ⟨h3, _⟩ <;> exact absurd h3 h2

/-- C110: the same of the split servers as long as their threads take turns. -/
theorem C110_split_gather (env : Env) (hs : Sane env) (I : Interp σ) (hd : SendsValues I) (st : Start σ) (s : Duo σ) (h : InTurn env I st s)
    (hi : ∀ t, Between s t) (a b : List (Chan × Multipart)) (c : Chan) (q : Multipart) (m : XMessage)
    (hh : handledIn (served s.log) = a ++ (c, q) :: b) (ha : Accepted env.C env.J env.auth q m) (h0 : m.body.header ≠ .obj [])
    (hu : ∀ x ∈ a ++ b, ¬ HasHeader env m.body.header x.2) (hb : Undisturbed env c b) :
    ∃ es₁ blk es₂, eventsIn (served s.log) = es₁ ++ blk ++ es₂ ∧ Transcript env (a.map fun x => (x.2, x.1)) es₁ ∧ Block env m c blk ∧
      Transcript env (b.map fun x => (x.2, x.1)) es₂ ∧ about m.body.header (eventsIn (served s.log)) = publishedOn c blk ∧
      (c = .shell → ¬ IsReq m .shutdown → ¬ IsReq m .interrupt → publishedOn c blk = published blk) := by
  obtain ⟨lat, _, h1⟩ := serial_credited hs (C107_serial env hs I hd st s h hi)
  rw [← Duo.events_reach (sound_of hs hd) (Duo.orderly_reach h), hh] at h1
  exact (credited_gather h1 ha h0 hu hb).2.2

/-- The last of five requests, a shutdown request on the control channel: it is busy, the shutdown is announced, and it is idle. -/
example : ∃ (a : List (Chan × Multipart)) (q : Multipart) (m : XMessage), SendsValues askInterp ∧ InTurn sampleEnv askInterp 0 Duo.turned ∧
    (∀ t, Between Duo.turned t) ∧ handledIn (served Duo.turned.log) = a ++ (.control, q) :: [] ∧ a.length = 4 ∧
    Accepted sampleEnv.C sampleEnv.J sampleEnv.auth q m ∧ m.body.header ≠ .obj [] ∧ (about m.body.header (eventsIn (served Duo.turned.log))).length = 3 := by
  refine ⟨(handledIn (served Duo.turned.log)).take 4, wireOf (reqFrom "b" "m5" "shutdown_request" (.obj [(lit "restart", .bool false)])),
    reqFrom "b" "m5" "shutdown_request" (.obj [(lit "restart", .bool false)]), askInterp_sends, Duo.turned_orderly.1, Duo.turned_orderly.2.1,
    by decide +kernel, by decide +kernel, sample_accepted (by decide +kernel), by decide +kernel, by decide +kernel⟩

/-- A request on the shell channel is handled, and then code is executed by a request on the control channel. -/
def Main.strayTurns : List Main.Choice :=
  [.shell (wireOf (reqFrom "a" "m1" "kernel_info_request" (.obj [])))] ++ List.replicate 60 .main ++
  [.control (wireOf (reqFrom "b" "m2" "execute_request" (.obj [(lit "code", .str (lit "1"))])))] ++ List.replicate 100 .main

def Main.stray : Main Nat := Main.strayTurns.foldl (Main.choose sampleEnv sampleInterp) (Main.init 0)

/-- Finding (C110): what a request on the control channel makes the interpreter publish names the latest request of the shell channel, after that
was said to be idle; so what names a request may be neither done for it nor between its busy and its idle. -/
theorem C110_stray_witness : ∃ (s : Main Nat) (m : XMessage) (es₁ es₂ : List Ev) (e : Ev), Main.Reach sampleEnv sampleInterp 0 s ∧ s.pc = .polling ∧
    handledIn s.log = [(.shell, wireOf m), (.control, wireOf (reqFrom "b" "m2" "execute_request" (.obj [(lit "code", .str (lit "1"))])))] ∧
    eventsIn s.log = es₁ ++ e :: es₂ ∧ (stateIs "idle", m.body.header) ∈ statusesIn es₁ ∧ about m.body.header [e] = [e] ∧ statusOf e = none := by
  have hsome : ((eventsIn Main.stray.log)[7]?).all (fun e =>
      decide (about (reqFrom "a" "m1" "kernel_info_request" (.obj [])).body.header [e] = [e] ∧ statusOf e = none)) = true := by decide +kernel
  have h1 : 7 < (eventsIn Main.stray.log).length := by decide +kernel
  have h2 := List.take_append_drop 7 (eventsIn Main.stray.log)
  rw [List.drop_eq_getElem_cons h1] at h2
  rw [List.getElem?_eq_getElem h1] at hsome
  simp only [Option.all_some, decide_eq_true_eq] at hsome
  exact ⟨Main.stray, reqFrom "a" "m1" "kernel_info_request" (.obj []), _, _, _, Main.reach_choose _, by decide +kernel, by decide +kernel, h2.symm,
    by decide +kernel, hsome.1, hsome.2⟩

end Xeus
