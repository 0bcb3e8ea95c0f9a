import Verif.Server.Parts
import Verif.Server.DuoProps

/-!
# C100: the two threads of the split servers touch different parts of the kernel

The shell thread and the control thread call the same kernel core, interpreter and history manager without any lock.  The theorems say
which requests are safe on the control channel: those whose handlers, and the user code they run, keep to the state of the interpreter
and debugger.
-/

namespace Xeus

open Spec Duo

variable {σ β γ : Type} {env : Env} {I : Interp σ} {st : Start σ}

/-! ## Concrete material -/

/-- All requests taken from a channel are of these kinds. -/
def takenOnly (env : Env) (c : Chan) (ok : Req → Bool) (l : List DEv) : Bool :=
  l.all fun
    | .ev (.act (.took c' q)) => if c' = c then
        match deserialize env.C env.J env.auth q with
        | .ok m => match typeOf m.body.header with
          | some t => match getHandler t with
            | some r => ok r
            | none => true
          | none => true
        | _ => true
      else true
    | _ => true

theorem takenOnly_ok {c : Chan} {ok : Req → Bool} {l : List DEv} (h : takenOnly env c ok l = true) {q : Multipart} {m : XMessage}
    {r : Req} (hq : DEv.ev (.act (.took c q)) ∈ l) (ha : Accepted env.C env.J env.auth q m) (hr : IsReq m r) : ok r = true := by
  have := List.all_eq_true.1 h _ hq
  have hr' : typeOf m.body.header = some (lit (requestType r)) := hr
  simpa only [if_true, accepted_ok _ _ _ _ _ ha, hr', getHandler_req] using this

theorem askInterp_lone : Lone askInterp .debug := by
  intro d hd h c
  obtain rfl := Option.some.inj hd
  refine ⟨⟨_, rfl⟩, fun r => ?_⟩
  rcases r with e | v <;> trivial

/-- Both threads at work: an execute request on the shell channel and a debug request on the control channel. -/
def bothTurns : List Split.Choice :=
  [.toShell (wireOf (reqFrom "a" "m1" "execute_request" (.obj [(lit "code", .str (lit "1"))]))),
   .toControl (wireOf (reqFrom "b" "m2" "debug_request" (.obj [(lit "command", .str (lit "inspect"))])))] ++
  List.replicate 13 .shell ++ List.replicate 6 .control

def both : Duo Nat := bothTurns.foldl (Duo.choose sampleEnv askInterp) (Duo.init 0)

theorem both_reach : Reach sampleEnv askInterp 0 both := Duo.reach_choose bothTurns

theorem both_lone : ControlLone sampleEnv askInterp both := by
  have h : takenOnly sampleEnv .control (fun r => r = .debug) both.log = true := by decide +kernel
  intro q m r hq ha hr
  have := takenOnly_ok h hq ha hr
  obtain rfl : r = .debug := by simpa using this
  exact askInterp_lone

theorem both_plain : ShellPlain sampleEnv both := by
  have h : takenOnly sampleEnv .shell (fun r => r = .execute) both.log = true := by decide +kernel
  intro q m r hq ha hr
  have := takenOnly_ok h hq ha hr
  obtain rfl : r = .execute := by simpa using this
  exact ⟨by decide, by decide⟩

/-- Both threads have an access to make next. -/
def twoActs (s : Duo σ) : Bool :=
  decide (s.kpc = .busy) &&
  (match s.cprog with | .act _ _ => true | _ => false) &&
  (match s.spc with | .busy _ => true | _ => false) &&
  match s.sprog with | .act _ _ => true | _ => false

theorem twoActs_ok {s : Duo σ} (h : twoActs s = true) : (∃ (β : Type) (f : World σ → Res β × World σ), ControlNext s f) ∧
    ∃ (β : Type) (f : World σ → Res β × World σ), ShellNext s f := by
  unfold twoActs at h
  rw [Bool.and_eq_true, Bool.and_eq_true, Bool.and_eq_true] at h
  obtain ⟨⟨⟨h1, h2⟩, h3⟩, h4⟩ := h
  constructor
  · cases hc : s.cprog with
    | act f k => exact ⟨_, f, by simpa using h1, k, hc⟩
    | _ => rw [hc] at h2; cases h2
  · cases hc : s.spc with
    | busy r =>
      cases hp : s.sprog with
      | act f k => exact ⟨_, f, .inl ⟨r, hc, k, hp⟩⟩
      | _ => rw [hp] at h4; cases h4
    | _ => rw [hc] at h3; cases h3

/-! ## The theorems -/

/-- C100: for the requests that belong on the control channel (shutdown, interrupt, debug, kernel info and the like, with user code that
keeps to its own state), the control thread touches nothing of the kernel but that state and its own parent request. -/
theorem C100_control {s : Duo σ} (h : Reach env I st s) (hl : ControlLone env I s) {f : World σ → Res β × World σ}
    (hf : ControlNext s f) (p : Part) (hu : p ≠ .user) (hc : ¬ OfControl p) : Untouched p f := by
  obtain ⟨_, k, hk⟩ := hf
  have := (kept_reach h).control hl
  rw [hk] at this
  exact this.1 p ⟨hu, hc⟩

/-- C100: the shell thread never touches the parent request of the control thread, whatever the interpreter does, as long as the
client sends shutdown and interrupt requests to the control channel. -/
theorem C100_shell {s : Duo σ} (h : Reach env I st s) (hl : ShellPlain env s) {f : World σ → Res β × World σ}
    (hf : ShellNext s f) (p : Part) (hc : OfControl p) : Untouched p f := by
  rcases hf with ⟨r, _, k, hk⟩ | ⟨_, k, hk⟩
  · have := (kept_reach h).shell hl
    rw [hk] at this
    exact this.1 p hc
  · exact ((kept_reach h).inner _ hk).1 p hc

/-- C100: so of the two accesses the threads make next, at most one touches any given part, but for the state of the interpreter. -/
theorem C100_apart {s : Duo σ} (h : Reach env I st s) (hc : ControlLone env I s) (hs : ShellPlain env s)
    {f : World σ → Res β × World σ} {g : World σ → Res γ × World σ} (hf : ControlNext s f) (hg : ShellNext s g) (p : Part)
    (hu : p ≠ .user) : Untouched p f ∨ Untouched p g := by
  by_cases hp : OfControl p
  · exact .inr (C100_shell h hs hg p hp)
  · exact .inl (C100_control h hc hf p hu hp)

example : (∃ (β : Type) (f : World Nat → Res β × World Nat), ControlNext both f) ∧
    (∃ (β : Type) (f : World Nat → Res β × World Nat), ShellNext both f) := twoActs_ok (by decide +kernel)

example {f : World Nat → Res β × World Nat} {g : World Nat → Res γ × World Nat} (hf : ControlNext both f) (hg : ShellNext both g) :
    Untouched .count f ∨ Untouched .count g := C100_apart both_reach both_lone both_plain hf hg .count (by decide)

/-- What is untouched stays as it is. -/
theorem untouched_same {f : World σ → Res β × World σ} {p : Part} (h : Untouched p f) (w : World σ) : (f w).2 = graft (f w).2 w p := by
  have := h w w
  have hg : graft w w p = w := by
    cases p <;> first | rfl | (simp only [graft, ite_self])
  rw [hg] at this
  exact congrArg Prod.snd this

/-- C100: in particular no step of the control thread changes the execution counter, the history, the comms, the parent request of the
shell thread, what waits on the shell and stdin sockets, or a pending input request. -/
theorem C100_kept {s s' : Duo σ} (h : Reach env I st s) (hl : ControlLone env I s) (hs : Step env I .control s s') :
    s'.w.count = s.w.count ∧ s'.w.hist = s.w.hist ∧ s'.w.comm = s.w.comm ∧ s'.w.parent .shell = s.w.parent .shell ∧
      s'.w.shellQ = s.w.shellQ ∧ s'.w.stdinQ = s.w.stdinQ ∧ s'.w.input = s.w.input := by
  cases hs with
  | workControl _ p w' keep h1 h2 h3 =>
    cases hc : s.cprog with
    | done r => rw [hc] at h2; cases h2
    | ask t k => rw [hc] at h2; cases h2
    | act f k =>
      have hn : ControlNext s f := ⟨h1, k, hc⟩
      have hw : w' = (f s.w).2 := by
        rw [hc] at h2
        have := Option.some.inj h2
        revert this
        rcases f s.w with ⟨r, w''⟩
        cases r <;> intro this <;> cases this <;> rfl
      have hu : ∀ p, p ≠ .user → ¬ OfControl p → w' = graft w' s.w p := fun p h1 h2 => by
        rw [hw]; exact untouched_same (C100_control h hl hn p h1 h2) s.w
      show w'.count = _ ∧ w'.hist = _ ∧ w'.comm = _ ∧ w'.parent .shell = _ ∧ w'.shellQ = _ ∧ w'.stdinQ = _ ∧ w'.input = _
      have c1 := congrArg World.count (hu .count (by decide) (by unfold OfControl; decide))
      have c2 := congrArg World.hist (hu .history (by decide) (by unfold OfControl; decide))
      have c3 := congrArg World.comm (hu .comms (by decide) (by unfold OfControl; decide))
      have c4 := congrArg (fun w => (w.parent .shell).ids) (hu (.ids .shell) (by decide) (by unfold OfControl; decide))
      have c5 := congrArg (fun w => (w.parent .shell).header) (hu (.header .shell) (by decide) (by unfold OfControl; decide))
      have c6 := congrArg World.shellQ (hu .shellSocket (by decide) (by unfold OfControl; decide))
      have c7 := congrArg World.stdinQ (hu .stdinSocket (by decide) (by unfold OfControl; decide))
      have c8 := congrArg World.input (hu .input (by decide) (by unfold OfControl; decide))
      simp only [graft, if_true] at c1 c2 c3 c4 c5 c6 c7 c8
      refine ⟨c1, c2, c3, ?_, c6, c7, c8⟩
      cases hx : w'.parent .shell
      rw [hx] at c4 c5
      simp only at c4 c5
      rw [c4, c5]
  | _ => exact ⟨rfl, rfl, rfl, rfl, rfl, rfl, rfl⟩

example {s' : Duo Nat} (hs : Step sampleEnv askInterp .control both s') : s'.w.count = 1 := by
  have : both.w.count = 1 := by decide +kernel
  rw [(C100_kept both_reach both_lone hs).1, this]

/-! ## The requests that are not safe there -/

/-- Two execute requests at the same time, one on each channel. -/
def raceTurns : List Split.Choice :=
  [.toShell (wireOf (reqFrom "a" "m1" "execute_request" (.obj [(lit "code", .str (lit "1"))]))),
   .toControl (wireOf (reqFrom "b" "m2" "execute_request" (.obj [(lit "code", .str (lit "2"))])))] ++
  (List.replicate 60 [Split.Choice.control, .shell]).flatten

def race : Duo Nat := raceTurns.foldl (Duo.choose sampleEnv sampleInterp) (Duo.init 0)

/-- The numbers and codes announced to the clients. -/
def announced : List DEv → List (Json × Json)
  | [] => []
  | .ev (.act (.did _ (.pub _ m _))) :: r =>
    (if typeOf m.body.header = some (lit "execute_input") then
      match m.body.content with
      | .obj l => [((alGet (lit "execution_count") l).getD .null, (alGet (lit "code") l).getD .null)]
      | _ => []
    else []) ++ announced r
  | _ :: r => announced r

/-- C100: an execute request on the control channel is accepted all the same, and handled without any protection: two requests executed
at the same time are given the same number, and another number is never used. -/
theorem C100_count_witness : ∃ s : Duo Nat, Duo.Reach sampleEnv sampleInterp 0 s ∧ s.w.count = 2 ∧
    announced s.log = [(.int 2, .str (lit "2")), (.int 2, .str (lit "1"))] :=
  ⟨race, Duo.reach_choose raceTurns, by decide +kernel, by decide +kernel⟩

end Xeus
