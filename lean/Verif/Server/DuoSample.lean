import Verif.Server.DuoTrace
import Verif.Server.ServiceProps

/-!
# Concrete material for the `example`s about internal requests in the split servers
-/

namespace Xeus

open Spec K

variable {σ : Type}

/-- A debugger that has the shell thread look at the content of each request; the shell thread counts and prints. -/
def askInterp : Interp Nat := { sampleInterp with
  internal := fun j => .call (.pub (.stream (lit "stdout") (lit "looking"))) fun _ => .get fun n => .set (n + 1) (.ret j)
  debug := some fun _ content => .call (.toShell content) fun
    | .ok _ => .ret (.obj [(lit "success", .bool true)])
    | .error e => .throw e }

theorem askInterp_sends : SendsValues askInterp := by
  intro d hd header content _ hc
  obtain rfl := Option.some.inj hd
  refine ⟨fun j hj => by injection hj with hj; rw [← hj]; exact hc, fun r => ?_⟩
  rcases r with e | v <;> trivial

/-- The same, but executing code takes for ever (the code is stopped at a breakpoint, say). -/
def slowInterp : Interp Nat := { askInterp with execute := fun _ _ _ _ _ _ => .hang }

theorem slowInterp_sends : SendsValues slowInterp := askInterp_sends

/-- The same, but the internal request fails. -/
def brokenInterp : Interp Nat := { askInterp with internal := fun _ => .throw (.runtime "no such frame") }

theorem brokenInterp_sends : SendsValues brokenInterp := askInterp_sends

namespace Duo

/-- The next step of the control thread, no publication being dropped. -/
def controlNext (env : Env) (I : Interp σ) (s : Duo σ) : Duo σ :=
  match s.kpc with
  | .entry => { s with kpc := .loop, flag := false, log := s.log ++ [.ev .began] }
  | .loop => if s.flag = true then { s with kpc := .stopSh } else { s with kpc := .recv }
  | .recv => match s.controlQ with
    | q :: r => { s with
        controlQ := r, cprog := dispatchA env I q .control, kpc := .busy, log := s.log ++ [.ev (.act (.took .control q))] }
    | [] => s
  | .busy => match s.cprog.step s.w with
    | some (p, w') => { s.effect .control w' (fun k => pubsOn k (w'.out.drop s.w.out.length)) with cprog := p }
    | none => match s.cprog with
      | .done (.ok ()) => { s with kpc := .loop }
      | .ask text k => match s.calling with
        | false => { s with calling := true, cmd := some text, log := s.log ++ [.asked text] }
        | true => match s.rep with
          | some r => { s with calling := false, rep := none, cprog := k (.ok r), log := s.log ++ [.got r] }
          | none => s
      | _ => s
  | .stopSh => { s with kpc := .waitSh, cmd := some (lit "stop"), log := s.log ++ [.ev .sentStop] }
  | .waitSh => if s.rep ≠ none then { s with kpc := .stopPub, rep := none } else s
  | .stopPub => { s with kpc := .waitPub, pub := s.pub.command }
  | .waitPub => if s.pub.ack = true then { s with kpc := .stopHb, pub := s.pub.answered } else s
  | .stopHb => { s with kpc := .waitHb, hb := s.hb.command }
  | .waitHb => if s.hb.ack = true then { s with kpc := .notify, hb := s.hb.answered } else s
  | .notify => { s with kpc := .over, stopped := true }
  | .over => s

/-- The next step of the shell thread, no publication being dropped. -/
def shellNext (env : Env) (I : Interp σ) (s : Duo σ) : Duo σ :=
  match s.spc with
  | .poll => { s with spc := .sampled (s.w.shellQ ≠ []) }
  | .sampled r0 => if r0 = true ∨ s.cmd ≠ none then { s with spc := .ready r0 s.cmd.isSome } else { s with spc := .poll }
  | .ready true r1 => match s.w.shellQ with
    | q :: r => { s with
        w := { s.w with shellQ := r }, sprog := dispatchA env I q .shell
        spc := .busy r1, log := s.log ++ [.ev (.act (.took .shell q))] }
    | [] => s
  | .ready false r1 => { s with spc := .asked r1 }
  | .busy r1 => match s.sprog.step s.w with
    | some (p, w') => { s.effect .shell w' (fun k => pubsOn k (w'.out.drop s.w.out.length)) with sprog := p }
    | none => match s.sprog with
      | .done (.ok ()) => { s with spc := .asked r1 }
      | _ => s
  | .asked false => { s with spc := .poll }
  | .asked true => match s.cmd with
    | some text =>
      if text = lit "stop" then { s with spc := .echo, cmd := none }
      else { s with spc := .echo, cmd := none, inner := some (dispatchInternal env I text), log := s.log ++ [.began text] }
    | none => s
  | .echo => match s.inner with
    | some m => match m.step s.w with
      | some (p, w') => { s.effect .control w' (fun k => pubsOn k (w'.out.drop s.w.out.length)) with inner := some p }
      | none => match m with
        | .done (.ok r) => { s with spc := .poll, inner := none, rep := some r, log := s.log ++ [.ended r] }
        | _ => s
    | none => { s with spc := .over, rep := some (lit "stop") }
  | .over => s

/-- Perform it if possible. -/
def choose (env : Env) (I : Interp σ) (s : Duo σ) : Split.Choice → Duo σ
  | .toShell q => { s with w := { s.w with shellQ := s.w.shellQ ++ [q] }, log := s.log ++ [.ev (.arrived .shell q)] }
  | .toControl q => { s with controlQ := s.controlQ ++ [q], log := s.log ++ [.ev (.arrived .control q)] }
  | .control => controlNext env I s
  | .shell => shellNext env I s
  | .pub => { s with pub := Split.pubNext s.pub }
  | .hb => { s with hb := Main.hbNext s.hb }

theorem controlNext_ok {env : Env} {I : Interp σ} (s : Duo σ) :
    (Step env I .control s (controlNext env I s) ∨ controlNext env I s = s) ∧ (controlNext env I s).hb.inq = s.hb.inq := by
  unfold controlNext
  split
  · rename_i h; exact ⟨.inl (.start s h), rfl⟩
  · rename_i h
    split
    · rename_i h'; exact ⟨.inl (.leave s h h'), rfl⟩
    · rename_i h'; exact ⟨.inl (.test s h (by simpa using h')), rfl⟩
  · rename_i h
    split
    · rename_i q r hq; exact ⟨.inl (.takeControl s q r h hq), rfl⟩
    · exact ⟨.inr rfl, rfl⟩
  · rename_i h
    split
    · rename_i p w' hs; exact ⟨.inl (.workControl s p w' _ h hs (fun _ => List.Sublist.refl _)), rfl⟩
    · split
      · rename_i h'; exact ⟨.inl (.doneControl s h h'), rfl⟩
      · rename_i text k h'
        split
        · rename_i hc; exact ⟨.inl (.call s text k h hc h'), rfl⟩
        · rename_i hc
          split
          · rename_i r hr; exact ⟨.inl (.answer s text k r h hc h' hr), rfl⟩
          · exact ⟨.inr rfl, rfl⟩
      · exact ⟨.inr rfl, rfl⟩
  · rename_i h; exact ⟨.inl (.stopSh s h), rfl⟩
  · rename_i h
    split
    · rename_i h'; exact ⟨.inl (.waitSh s h h'), rfl⟩
    · exact ⟨.inr rfl, rfl⟩
  · rename_i h; exact ⟨.inl (.stopPub s h), rfl⟩
  · rename_i h
    split
    · rename_i h'; exact ⟨.inl (.waitPub s h h'), rfl⟩
    · exact ⟨.inr rfl, rfl⟩
  · rename_i h; exact ⟨.inl (.stopHb s h), rfl⟩
  · rename_i h
    split
    · rename_i h'; exact ⟨.inl (.waitHb s h h'), rfl⟩
    · exact ⟨.inr rfl, rfl⟩
  · rename_i h; exact ⟨.inl (.notify s h), rfl⟩
  · exact ⟨.inr rfl, rfl⟩

theorem shellNext_ok {env : Env} {I : Interp σ} (s : Duo σ) :
    (Step env I .shell s (shellNext env I s) ∨ shellNext env I s = s) ∧ (shellNext env I s).hb.inq = s.hb.inq := by
  unfold shellNext
  split
  · rename_i h; exact ⟨.inl (.sample0 s _ h (by simp)), rfl⟩
  · rename_i r0 h
    split
    · rename_i h'; exact ⟨.inl (.sample1 s r0 h h'), rfl⟩
    · rename_i h'
      have h1 : r0 = false := by cases r0 <;> simp_all
      have h2 : s.cmd = none := Classical.byContradiction fun hc => h' (.inr hc)
      subst h1
      exact ⟨.inl (.nothing s h h2), rfl⟩
  · rename_i r1 h
    split
    · rename_i q r hq; exact ⟨.inl (.takeShell s r1 q r h hq), rfl⟩
    · exact ⟨.inr rfl, rfl⟩
  · rename_i r1 h; exact ⟨.inl (.skip s r1 h), rfl⟩
  · rename_i r1 h
    split
    · rename_i p w' hs; exact ⟨.inl (.workShell s r1 p w' _ h hs (fun _ => List.Sublist.refl _)), rfl⟩
    · split
      · rename_i h'; exact ⟨.inl (.doneShell s r1 h h'), rfl⟩
      · exact ⟨.inr rfl, rfl⟩
  · rename_i h; exact ⟨.inl (.again s h), rfl⟩
  · rename_i h
    split
    · rename_i text hc
      split
      · rename_i ht; exact ⟨.inl (.recvStop s h (ht ▸ hc)), rfl⟩
      · rename_i ht; exact ⟨.inl (.recvInternal s text h hc ht), rfl⟩
    · exact ⟨.inr rfl, rfl⟩
  · rename_i h
    split
    · rename_i m hm
      split
      · rename_i p w' hs; exact ⟨.inl (.workInternal s m p w' _ h hm hs (fun _ => List.Sublist.refl _)), rfl⟩
      · split
        · rename_i r _; exact ⟨.inl (.doneInternal s r h hm), rfl⟩
        · exact ⟨.inr rfl, rfl⟩
    · rename_i hm; exact ⟨.inl (.sendCtl s h hm), rfl⟩
  · exact ⟨.inr rfl, rfl⟩

theorem choose_one {env : Env} {I : Interp σ} (s : Duo σ) (c : Split.Choice) (he : ∀ i, s.hb.inq i = []) :
    (choose env I s c = s ∨ ∃ a, Step env I a s (choose env I s c)) ∧ ∀ i, (choose env I s c).hb.inq i = [] := by
  cases c with
  | toShell q => exact ⟨.inr ⟨_, .arriveShell s q⟩, he⟩
  | toControl q => exact ⟨.inr ⟨_, .arriveControl s q⟩, he⟩
  | control =>
    obtain ⟨h1 | h1, h2⟩ := controlNext_ok (env := env) (I := I) s
    · exact ⟨.inr ⟨_, h1⟩, by show ∀ i, (controlNext env I s).hb.inq i = []; rw [h2]; exact he⟩
    · exact ⟨.inl h1, by show ∀ i, (controlNext env I s).hb.inq i = []; rw [h2]; exact he⟩
  | shell =>
    obtain ⟨h1 | h1, h2⟩ := shellNext_ok (env := env) (I := I) s
    · exact ⟨.inr ⟨_, h1⟩, by show ∀ i, (shellNext env I s).hb.inq i = []; rw [h2]; exact he⟩
    · exact ⟨.inl h1, by show ∀ i, (shellNext env I s).hb.inq i = []; rw [h2]; exact he⟩
  | pub =>
    rcases Split.pubNext_ok s.pub with h1 | h1
    · exact ⟨.inr ⟨_, .publisher s _ h1⟩, he⟩
    · refine ⟨.inl ?_, he⟩
      show { s with pub := Split.pubNext s.pub } = s
      rw [h1]
  | hb =>
    obtain ⟨h1 | h1, h2⟩ := Main.hbNext_ok s.hb he
    · exact ⟨.inr ⟨_, .heartbeat s _ h1⟩, h2⟩
    · refine ⟨.inl ?_, h2⟩
      show { s with hb := Main.hbNext s.hb } = s
      rw [h1]

/-- Any list of choices is a schedule. -/
theorem reach_choose {env : Env} {I : Interp σ} {st : Start σ} (cs : List Split.Choice) :
    Reach env I st (cs.foldl (choose env I) (init st)) := by
  suffices h : ∀ (s : Duo σ), Reach env I st s → (∀ i, s.hb.inq i = []) → Reach env I st (cs.foldl (choose env I) s) from
    h _ .init fun _ => rfl
  induction cs with
  | nil => intro s h _; exact h
  | cons c cs ih =>
    intro s h he
    obtain ⟨h1, h2⟩ := choose_one (env := env) (I := I) s c he
    refine ih _ ?_ h2
    rcases h1 with h1 | ⟨a, h1⟩
    · rw [h1]; exact h
    · exact h.step h1

/-- The debugger asks the shell thread twice, once while that handles a message; then a shutdown request ends the servers. -/
def dayTurns : List Split.Choice :=
  [.toShell (wireOf (reqFrom "a" "m1" "kernel_info_request" (.obj []))), .toShell (wireOf (reqFrom "a" "m2" "kernel_info_request" (.obj []))),
   .toControl (wireOf (reqFrom "b" "m3" "debug_request" (.obj [(lit "command", .str (lit "inspect"))]))),
   .toControl (wireOf (reqFrom "b" "m4" "debug_request" (.obj [])))] ++
  (List.replicate 120 [Split.Choice.control, .shell, .pub]).flatten ++
  [.toControl (wireOf (reqFrom "b" "m5" "shutdown_request" (.obj [(lit "restart", .bool false)])))] ++
  (List.replicate 70 [Split.Choice.shell, .control, .pub, .hb]).flatten

def day : Duo Nat := dayTurns.foldl (choose sampleEnv askInterp) (init 0)

/-- When the shell thread has handled two messages, the debugger waiting for it. -/
def sent : Duo Nat := (dayTurns.take 125).foldl (choose sampleEnv askInterp) (init 0)

/-- While the shell thread performs the request. -/
def serving : Duo Nat := (dayTurns.take 149).foldl (choose sampleEnv askInterp) (init 0)

/-- When the shell thread has sent the result and received another message. -/
def replied : Duo Nat := (dayTurns.take 150 ++ [Split.Choice.toShell (wireOf (reqFrom "a" "m6" "kernel_info_request" (.obj [])))] ++
  List.replicate 8 Split.Choice.shell).foldl (choose sampleEnv askInterp) (init 0)

/-- A debug request waits for the shell thread, which executes code for ever; a shutdown request is waiting. -/
def slowTurns : List Split.Choice :=
  [.toShell (wireOf (reqFrom "a" "m1" "execute_request" (.obj [(lit "code", .str (lit "1"))])))] ++ List.replicate 60 .shell ++
  [.toControl (wireOf (reqFrom "b" "m2" "debug_request" (.obj []))),
   .toControl (wireOf (reqFrom "b" "m3" "shutdown_request" (.obj [(lit "restart", .bool false)])))] ++ List.replicate 60 .control

def slow : Duo Nat := slowTurns.foldl (choose sampleEnv slowInterp) (init 0)

/-- A debug request on the shell channel. -/
def selfTurns : List Split.Choice :=
  [.toShell (wireOf (reqFrom "a" "m1" "debug_request" (.obj [])))] ++ List.replicate 60 .shell

def self : Duo Nat := selfTurns.foldl (choose sampleEnv askInterp) (init 0)

/-- The internal request of a debug request fails. -/
def failedTurns : List Split.Choice :=
  [.toControl (wireOf (reqFrom "b" "m2" "debug_request" (.obj []))),
   .toControl (wireOf (reqFrom "b" "m3" "shutdown_request" (.obj [(lit "restart", .bool false)])))] ++
  (List.replicate 40 [Split.Choice.control, .shell]).flatten

def failed : Duo Nat := failedTurns.foldl (choose sampleEnv brokenInterp) (init 0)

/-- No handler has failed. -/
def well (s : Duo σ) : Bool :=
  (match s.cprog with
    | .done (.ok ()) => true
    | .done _ => false
    | _ => true) &&
  (match s.sprog with
    | .done (.ok ()) => true
    | .done _ => false
    | .ask _ _ => false
    | _ => true) &&
  match s.inner with
    | some (.done (.ok _)) => true
    | some (.done _) => false
    | _ => true

theorem well_ok {s : Duo σ} (h : well s = true) : Well s := by
  unfold well at h
  rw [Bool.and_eq_true, Bool.and_eq_true] at h
  obtain ⟨⟨h1, h2⟩, h3⟩ := h
  refine ⟨fun r hr => ?_, fun r hr => ?_, fun t k hk => ?_, fun r hr => ?_⟩
  · rw [hr] at h1
    cases r <;> first | rfl | cases h1
  · rw [hr] at h2
    cases r <;> first | rfl | cases h2
  · rw [hk] at h2; cases h2
  · rw [hr] at h3
    cases r <;> first | exact ⟨_, rfl⟩ | cases h3

theorem over_stuck {env : Env} {I : Interp σ} {s : Duo σ} (h1 : s.kpc = .over) (h2 : s.spc = .over) (h3 : s.pub.pc = .over)
    (h4 : s.hb.pc = .over) (a : SWho) (ha : a ≠ .world) : ¬ CanStep (Step env I) a s := by
  rintro ⟨s', hs⟩
  cases hs with
  | publisher _ a h => exact Relay.over_stuck h3 h
  | heartbeat _ a h => exact Relay.over_stuck h4 h
  | _ => simp_all

/-- The day as an execution. -/
theorem day_exec : ∃ e : Execution (Step sampleEnv askInterp),
    (∀ n, e.state n = (dayTurns.take n).foldl (choose sampleEnv askInterp) (init 0)) ∧
    (∀ a, a ≠ SWho.world → Fair e a) ∧ (∀ m, Well (e.state m)) ∧ ∀ m, Undrained (e.state m) := by
  obtain ⟨e, he⟩ := exec_of_turns (step := Step sampleEnv askInterp) (choose sampleEnv askInterp)
    (fun s => ∀ i, s.hb.inq i = []) (fun s c h => choose_one s c h) (init 0) (fun _ => rfl) dayTurns
  have h1 : day.kpc = .over := by decide +kernel
  have h2 : day.spc = .over := by decide +kernel
  have h3 : day.pub.pc = .over := by decide +kernel
  have h4 : day.hb.pc = .over := by decide +kernel
  have hN : ∀ m, dayTurns.length ≤ m → e.state m = day := fun m hm => by rw [he, List.take_of_length_le hm]; rfl
  have hg : throughout (choose sampleEnv askInterp) well (init 0) dayTurns = true := by decide +kernel
  refine ⟨e, he, fun a ha => fair_of_end e hN (over_stuck h1 h2 h3 h4 a ha), fun m => ?_, fun m q hq => ?_⟩
  · have := throughout_ok hg m
    rw [← he] at this
    exact well_ok this
  · have hl := (log_exec e (Nat.le_max_left m dayTurns.length)).subset hq
    rw [hN _ (Nat.le_max_right _ _)] at hl
    have : day.log.all fun x => match x with | .ev (.act (.drained .control _)) => false | _ => true := by decide +kernel
    have := List.all_eq_true.1 this _ hl
    cases this

end Duo

end Xeus
