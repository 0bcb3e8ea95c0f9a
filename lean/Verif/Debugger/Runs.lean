import Verif.Debugger.Lemmas

/-!
# The debugger: what one request or event does to the records
-/

namespace Xeus.Dbg

open Xeus Spec K

variable {σ : Type} {d : Debugger σ}

/-- The records are unchanged and no readable file is. -/
structure Calm (d : Debugger σ) (s s' : State σ) : Prop where
  bps : s'.breakpoints = s.breakpoints
  thr : s'.threads = s.threads
  files : Grow d s s'

theorem calm_pre (d : Debugger σ) : Pre (Calm d) where
  refl _ := ⟨rfl, rfl, fun _ _ _ h => h⟩
  trans h h' := ⟨h'.bps.trans h.bps, h'.thr.trans h.thr, fun p c hr hf => h'.files p c hr (h.files p c hr hf)⟩

theorem Eff.calm {b : Bool} {s s' : State σ} (h : Eff d ⟨false, false, b⟩ s s') : Calm d s s' :=
  ⟨h.bps rfl, h.thr rfl, h.files⟩

theorem keeps_calm {α : Type} {b : Bool} {p : K (State σ) α} (h : Keeps (Eff d ⟨false, false, b⟩) p) : Keeps (Calm d) p :=
  fun s => (h s).calm

theorem calm_callStart : Keeps (Calm d) (callStart d) := by
  refine Keeps.lift fun s => ?_
  split <;> exact ⟨rfl, rfl, fun _ _ _ h => h⟩

theorem calm_callStop : Keeps (Calm d) (callStop d) := by
  refine Keeps.lift fun s => ?_
  split <;> exact ⟨rfl, rfl, fun _ _ _ h => h⟩

theorem calm_tryStart (m : Json) : Keeps (Calm d) (tryStart d m) := by
  have hp := calm_pre d
  refine Keeps.bind hp calm_callStart fun b => ?_
  cases b
  · exact Keeps.bind hp (Keeps.ofRes hp _) fun _ => Keeps.pure hp _
  · exact Keeps.pure hp _

theorem calm_initPart (m command : Json) : Keeps (Calm d) (initPart d m command) := by
  have hp := calm_pre d
  unfold initPart
  split
  · refine Keeps.bind hp (Keeps.read hp _) fun b => ?_
    cases b
    · exact calm_tryStart m
    · exact Keeps.pure hp _
  · exact Keeps.pure hp _

theorem calm_dispatch (hd : Extends d) (header m reply : Json) {name : Str} (hn : name ≠ lit "setBreakpoints") :
    Keeps (Calm d) (dispatch d header m reply name (d.requestHandler false name)) := by
  have hp := calm_pre d
  cases h : d.requestHandler false name with
  | some h' => exact keeps_calm (eff_handler_other hd h hn m)
  | none =>
    refine Keeps.bind hp (Keeps.read hp _) fun b => ?_
    cases b
    · exact Keeps.pure hp _
    · refine Keeps.bind hp (keeps_calm (eff_sendHeader (F := ⟨false, false, true⟩) rfl header)) fun _ => ?_
      cases h' : d.requestHandler true name with
      | some h'' => exact keeps_calm (eff_handler_other hd h' hn m)
      | none => exact keeps_calm (eff_forward (F := ⟨false, false, true⟩) rfl m)

theorem initPart_other {m command : Json} (h : isText command "initialize" = false) (s : State σ) :
    (initPart d m command).run s = (.ok (.obj []), s) := by
  simp only [initPart, h, Bool.false_eq_true, if_false, run_pure]

theorem disconnect_other {command : Json} (h : isText command "disconnect" = false) (s : State σ) :
    (disconnectPart d command).run s = (.ok (), s) := by
  simp only [disconnectPart, h, Bool.false_eq_true, if_false, run_pure]

/-- Everything of a request except the reaction to a disconnection. -/
def body (d : Debugger σ) (header m command : Json) : K (State σ) Json := do
  let reply₀ ← initPart d m command
  let name ← K.ofRes command.getStr
  dispatch d header m reply₀ name (d.requestHandler false name)

theorem run_processRequest (d : Debugger σ) (header m : Json) (s : State σ) :
    (processRequest d header m).run s = andThen (m.cidx (lit "command"), s) fun command s =>
      andThen ((body d header m command).run s) fun reply s =>
        andThen ((disconnectPart d command).run s) fun _ s => (.ok reply, s) := by
  simp only [processRequest, run_bind, run_ofRes, run_pure, body]
  congr 1
  funext command s
  cases h : (initPart d m command).run s with
  | mk r s' => cases r <;> simp only [andThen_ok, andThen_exc, andThen_ub, andThen_hang]
               cases h' : command.getStr <;> simp only [andThen_ok, andThen_exc, andThen_ub, andThen_hang]

theorem calm_body (hd : Extends d) (header m : Json) {command : Json} (hn : command ≠ .str (lit "setBreakpoints")) :
    Keeps (Calm d) (body d header m command) := by
  have hp := calm_pre d
  refine Keeps.bind hp (calm_initPart m command) fun r => ?_
  cases h : command.getStr with
  | ok name =>
    rw [ofRes_ok_bind]
    rw [getStr_ok] at h
    exact calm_dispatch hd header m r fun hc => hn (by rw [h, hc])
  | exc e => rw [ofRes_exc_bind]; exact Keeps.ofRes hp _
  | ub w => intro s; simpa using hp.refl s
  | hang => intro s; simpa using hp.refl s

theorem find_builtin (b : Bool) (name : Str) :
    ({ d with requests := [] } : Debugger σ).requestHandler b name =
      (([(lit "debugInfo", false, .debugInfo), (lit "dumpCell", true, .dumpCell),
        (lit "setBreakpoints", true, .setBreakpoints), (lit "source", true, .source),
        (lit "stackTrace", true, .stackTrace), (lit "variables", true, .variables)] :
          List (Str × Bool × Handler σ)).reverse.find? fun r => decide (r.1 = name) && r.2.1 == b).map fun r => r.2.2 := by
  unfold Debugger.requestHandler Debugger.allRequests
  rw [List.append_nil]

theorem lits_ne : lit "variables" ≠ lit "setBreakpoints" ∧ lit "stackTrace" ≠ lit "setBreakpoints" ∧
    lit "source" ≠ lit "setBreakpoints" ∧ lit "dumpCell" ≠ lit "setBreakpoints" ∧
    lit "debugInfo" ≠ lit "setBreakpoints" := by decide +kernel

theorem handler_setBreakpoints (hd : Extends d) :
    d.requestHandler false (lit "setBreakpoints") = none ∧
      d.requestHandler true (lit "setBreakpoints") = some .setBreakpoints := by
  have hm : lit "setBreakpoints" ∈ builtinCommands := by simp [builtinCommands]
  obtain ⟨h₁, h₂, h₃, h₄, h₅⟩ := lits_ne
  rw [requestHandler_builtin hd hm, requestHandler_builtin hd hm, find_builtin, find_builtin]
  constructor <;> simp [h₁, h₂, h₃, h₄, h₅]

/-- The effect of a setBreakpoints request on a debugger that is running. -/
theorem run_setBreakpoints {m : Json} {src : Str} {v : Json}
    (hsrc : At m [lit "arguments", lit "source", lit "path"] (.str src))
    (hv : At m [lit "arguments", lit "breakpoints"] v) (s : State σ) :
    (setBreakpoints d m).run s = (forwardMessage d m).run
      { s with breakpoints := Json.insertKV src (.arr (elements v)) (eraseSource src s.breakpoints) } := by
  have h := sourcePath_ok.2 hsrc
  obtain ⟨a, ha, hv⟩ := at_cons.1 hv
  obtain ⟨v', hv', hv⟩ := at_cons.1 hv
  rw [at_nil] at hv
  subst hv
  simp only [setBreakpoints, run_bind, run_ofRes, h, andThen_ok, run_modify, cidx_of_find ha, cidx_of_find hv']

theorem text_command {m c : Json} {t : Str} (h : m.cidx (lit "command") = .ok c) :
    At m [lit "command"] (.str t) ↔ c = .str t := by
  rw [at_cons]
  constructor
  · rintro ⟨w, hw, hv⟩
    rw [cidx_ok.1 h] at hw
    rw [at_nil] at hv
    cases hw
    exact hv.symm
  · rintro rfl
    exact ⟨_, cidx_ok.1 h, .here⟩

theorem lits_ne₂ : lit "setBreakpoints" ≠ lit "disconnect" ∧ lit "setBreakpoints" ≠ lit "initialize" ∧
    lit "disconnect" ≠ lit "initialize" ∧ lit "disconnect" ≠ lit "setBreakpoints" := by decide +kernel

/-- What a request does to the records. -/
theorem request_records (hd : Extends d) {header m : Json} {s s' : State σ} {r : Except Exc Json}
    (h : (processRequest d header m).attempt.run s = (.ok r, s')) :
    (Clears ⟨.request header m, s.started, r⟩ ∧ s'.breakpoints = [] ∧ s'.threads = [] ∧ s'.started = false) ∨
    (¬ Clears ⟨.request header m, s.started, r⟩ ∧ s'.threads = s.threads ∧
      ((∃ src l, Sets d.J ⟨.request header m, s.started, r⟩ src l ∧
          s'.breakpoints = Json.insertKV src (.arr l) (eraseSource src s.breakpoints)) ∨
        ((∀ src l, ¬ Sets d.J ⟨.request header m, s.started, r⟩ src l) ∧ s'.breakpoints = s.breakpoints))) := by
  rw [run_attempt, run_processRequest] at h
  cases hc : m.cidx (lit "command") with
  | ub w => simp [hc] at h
  | hang => simp [hc] at h
  | exc e =>
    simp only [hc, andThen_exc, captured_exc, Prod.mk.injEq, Res.ok.injEq] at h
    obtain ⟨rfl, rfl⟩ := h
    refine .inr ⟨?_, rfl, .inr ⟨?_, rfl⟩⟩
    · rintro ⟨_, _, _, _, _, h⟩
      cases h
    · rintro src l ⟨_, h', m', v, he, _, hcm, _⟩
      cases he
      obtain ⟨w, hw, _⟩ := at_cons.1 hcm
      exact cidx_exc hw hc
  | ok c =>
    simp only [hc, andThen_ok] at h
    have notClears (hc' : c ≠ .str (lit "disconnect")) (r' : Except Exc Json) :
        ¬ Clears ⟨.request header m, s.started, r'⟩ := by
      rintro ⟨h', m', _, he, hcm, _⟩
      cases he
      exact hc' ((text_command hc).1 hcm)
    have notSets (hc' : c ≠ .str (lit "setBreakpoints")) (r' : Except Exc Json) (src : Str) (l : List Json) :
        ¬ Sets d.J ⟨.request header m, s.started, r'⟩ src l := by
      rintro ⟨_, h', m', v, he, _, hcm, _⟩
      cases he
      exact hc' ((text_command hc).1 hcm)
    by_cases hs : c = .str (lit "setBreakpoints")
    · subst hs
      have hdis : isText (.str (lit "setBreakpoints")) "disconnect" = false := by
        simp [isText, lits_ne₂.1]
      have hini : isText (.str (lit "setBreakpoints")) "initialize" = false := by
        simp [isText, lits_ne₂.2.1]
      have hnc := notClears (r' := r) (by simpa using lits_ne₂.1)
      simp only [disconnect_other hdis, andThen_ok, body, run_bind, initPart_other hini, run_ofRes, Json.getStr,
        (handler_setBreakpoints hd).1, dispatch, whenStarted, run_read] at h
      refine .inr ⟨hnc, ?_⟩
      cases hst : s.started with
      | false =>
        simp only [hst, Bool.false_eq_true, if_false, run_pure, andThen_ok, captured_ok, Prod.mk.injEq, Res.ok.injEq] at h
        obtain ⟨_, rfl⟩ := h
        exact ⟨rfl, .inr ⟨fun src l hl => (by cases hl.1), rfl⟩⟩
      | true =>
        simp only [hst, if_true, run_bind, sendHeader, run_ofRes, Codec.writeZmq] at h
        cases hdump : d.J.dump .strict header with
        | none =>
          simp only [hdump, andThen_exc, captured_exc, Prod.mk.injEq, Res.ok.injEq] at h
          obtain ⟨_, rfl⟩ := h
          refine ⟨rfl, .inr ⟨?_, rfl⟩⟩
          rintro src l ⟨_, h', m', v, he, hj, _⟩
          cases he
          simp [hdump] at hj
        | some hb =>
          simp only [hdump, andThen_ok, emit, run_modify, recvAck, run_lift] at h
          cases hacks : s.acks with
          | nil => simp [hacks] at h
          | cons a as =>
            simp only [hacks, andThen_ok, run_pure, (handler_setBreakpoints hd).2, startedRequest, runHandler] at h
            generalize hs₁ : ({ s with out := s.out ++ [.header hb], acks := as } : State σ) = s₁ at h
            have hb₁ : s₁.breakpoints = s.breakpoints := by rw [← hs₁]
            have ht₁ : s₁.threads = s.threads := by rw [← hs₁]
            cases hsrc : sourcePath m with
            | ub w => simp [setBreakpoints, hsrc] at h
            | hang => simp [setBreakpoints, hsrc] at h
            | exc e =>
              simp only [setBreakpoints, run_bind, run_ofRes, hsrc, andThen_exc, captured_exc, Prod.mk.injEq, Res.ok.injEq] at h
              obtain ⟨_, rfl⟩ := h
              refine ⟨ht₁, .inr ⟨?_, hb₁⟩⟩
              rintro src l ⟨_, h', m', v, he, _, _, hp, _⟩
              cases he
              rw [sourcePath_ok.2 hp] at hsrc
              cases hsrc
            | ok src =>
              have hat := sourcePath_ok.1 hsrc
              obtain ⟨a', ha', hat'⟩ := at_cons.1 hat
              obtain ⟨b', hb', _⟩ := at_cons.1 hat'
              cases hv : a'.cidx (lit "breakpoints") with
              | ub w => simp [setBreakpoints, hsrc, cidx_of_find ha', hv] at h
              | hang => simp [setBreakpoints, hsrc, cidx_of_find ha', hv] at h
              | exc e => exact absurd hv (cidx_exc hb')
              | ok v =>
                have hvat : At m [lit "arguments", lit "breakpoints"] v := .member ha' (.member (cidx_ok.1 hv) .here)
                rw [run_setBreakpoints hat hvat] at h
                generalize hs₂ : State.mk s₁.st s₁.started
                    (Json.insertKV src (.arr (elements v)) (eraseSource src s₁.breakpoints))
                    s₁.threads s₁.files s₁.replies s₁.acks s₁.out = s₂ at h
                have heff := eff_forward (d := d) (F := ⟨false, false, true⟩) rfl m s₂
                rcases hf : (forwardMessage d m).run s₂ with ⟨rf, s₃⟩
                rw [hf] at h heff
                have hs₃ : s' = s₃ := by
                  cases rf <;> simp at h <;> exact h.2.symm
                subst hs₃
                have e₂ : s₂.breakpoints = Json.insertKV src (.arr (elements v)) (eraseSource src s₁.breakpoints) := by
                  rw [← hs₂]
                have e₃ : s₂.threads = s₁.threads := by rw [← hs₂]
                refine ⟨(heff.thr rfl).trans (e₃.trans ht₁), .inl ⟨src, elements v, ?_, ?_⟩⟩
                · exact ⟨rfl, header, m, v, rfl, by simp [hdump], (text_command hc).2 rfl, hat, hvat, listed_elements v⟩
                · rw [heff.bps rfl, e₂, hb₁]
    · have hcalm := calm_body hd header m hs s
      rcases hb : (body d header m c).run s with ⟨rb, s₁⟩
      rw [hb] at h hcalm
      cases rb with
      | ub w => simp at h
      | hang => simp at h
      | exc e =>
        simp only [andThen_exc, captured_exc, Prod.mk.injEq, Res.ok.injEq] at h
        obtain ⟨rfl, rfl⟩ := h
        refine .inr ⟨?_, hcalm.thr, .inr ⟨fun _ _ => notSets hs _ _ _, hcalm.bps⟩⟩
        rintro ⟨_, _, _, _, _, h⟩
        cases h
      | ok reply =>
        simp only [andThen_ok] at h
        by_cases hdc : c = .str (lit "disconnect")
        · subst hdc
          have hdis : isText (.str (lit "disconnect")) "disconnect" = true := by simp [isText]
          simp only [disconnectPart, hdis, if_true, run_bind, run_modify, andThen_ok] at h
          have hst := calm_callStop (d := d) s₁
          rcases hq : (callStop d).run s₁ with ⟨rq, s₂⟩
          rw [hq] at h hst
          cases rq with
          | ub w => simp at h
          | hang => simp at h
          | exc e =>
            simp only [andThen_exc, captured_exc, Prod.mk.injEq, Res.ok.injEq] at h
            obtain ⟨rfl, rfl⟩ := h
            refine .inr ⟨?_, hst.thr.trans hcalm.thr, .inr ⟨fun _ _ => notSets hs _ _ _, hst.bps.trans hcalm.bps⟩⟩
            rintro ⟨_, _, _, _, _, h⟩
            cases h
          | ok u =>
            simp only [andThen_ok, captured_ok, Prod.mk.injEq, Res.ok.injEq] at h
            obtain ⟨rfl, rfl⟩ := h
            exact .inl ⟨⟨header, m, reply, rfl, (text_command hc).2 rfl, rfl⟩, rfl, rfl, rfl⟩
        · have hdis : isText c "disconnect" = false := by simp [isText, hdc]
          simp only [disconnect_other hdis, andThen_ok, captured_ok, Prod.mk.injEq, Res.ok.injEq] at h
          obtain ⟨rfl, rfl⟩ := h
          exact .inr ⟨notClears hdc _, hcalm.thr, .inr ⟨fun _ _ => notSets hs _ _ _, hcalm.bps⟩⟩

end Xeus.Dbg
