import Verif.Debugger.Records

/-!
# The debugger: what is sent, and files
-/

namespace Xeus.Dbg

open Xeus Spec K

variable {σ : Type} {d : Debugger σ}

theorem running_append {l : List Event} {e : Event} (he : traffic e = true) : Running (l ++ [e]) ↔ Running l := by
  unfold Running
  constructor
  · rintro ⟨pre, post, h, hp⟩
    rcases List.eq_nil_or_concat post with rfl | ⟨post', z, rfl⟩
    · have := (List.append_inj' h rfl).2
      simp only [List.cons.injEq, and_true] at this
      subst this
      cases he
    · rw [List.concat_eq_append] at h hp
      have h' : l ++ [e] = (pre ++ .start true :: post') ++ [z] := by simpa using h
      exact ⟨pre, post', (List.append_inj' h' rfl).1, fun x hx => hp x (by simp [hx])⟩
  · rintro ⟨pre, post, rfl, hp⟩
    refine ⟨pre, post ++ [e], by simp, fun x hx => ?_⟩
    rcases List.mem_append.1 hx with hx | hx
    · exact hp x hx
    · rw [List.mem_singleton.1 hx]
      cases e <;> simp [traffic] at he <;> simp

theorem running_traffic {l ext : List Event} (h : ∀ e ∈ ext, traffic e = true) : Running (l ++ ext) ↔ Running l := by
  induction ext generalizing l with
  | nil => simp
  | cons e es ih =>
    have : l ++ e :: es = (l ++ [e]) ++ es := by simp
    rw [this, ih fun x hx => h x (List.mem_cons_of_mem _ hx), running_append (h e List.mem_cons_self)]

theorem running_start (l : List Event) (b : Bool) : Running (l ++ [.start b]) ↔ b = true := by
  constructor
  · rintro ⟨pre, post, h, hp⟩
    rcases List.eq_nil_or_concat post with rfl | ⟨post', z, rfl⟩
    · have := (List.append_inj' h rfl).2
      simpa using this
    · rw [List.concat_eq_append] at h hp
      have h' : l ++ [.start b] = (pre ++ .start true :: post') ++ [z] := by simpa using h
      have := (List.append_inj' h' rfl).2
      exact absurd (by simpa using this.symm) ((hp z (by simp)).2 b)
  · rintro rfl
    exact ⟨l, [], rfl, by simp⟩

theorem running_stop (l : List Event) : ¬ Running (l ++ [.stop]) := by
  rintro ⟨pre, post, h, hp⟩
  rcases List.eq_nil_or_concat post with rfl | ⟨post', z, rfl⟩
  · have := (List.append_inj' h rfl).2
    simp at this
  · rw [List.concat_eq_append] at h hp
    have h' : l ++ [.stop] = (pre ++ .start true :: post') ++ [z] := by simpa using h
    have := (List.append_inj' h' rfl).2
    exact (hp z (by simp)).1 (by simpa using this.symm)

/-- Everything was sent while running. -/
def Bracketed (l : List Event) : Prop := ∀ pre e post, l = pre ++ e :: post → traffic e = true → Running pre

theorem bracketed_snoc {l : List Event} {e : Event} (h : Bracketed l) (he : traffic e = true → Running l) :
    Bracketed (l ++ [e]) := by
  intro pre x post hx hq
  rcases List.eq_nil_or_concat post with rfl | ⟨post', z, rfl⟩
  · have := List.append_inj' hx rfl
    rw [← this.1]
    have h2 : e = x := by simpa using this.2
    exact he (h2 ▸ hq)
  · rw [List.concat_eq_append] at hx
    have h' : l ++ [e] = (pre ++ x :: post') ++ [z] := by simpa using hx
    exact h pre x post' (List.append_inj' h' rfl).1 hq

theorem bracketed_traffic {l ext : List Event} (h : Bracketed l) (hr : Running l) (he : ∀ e ∈ ext, traffic e = true) :
    Bracketed (l ++ ext) := by
  induction ext generalizing l with
  | nil => simpa using h
  | cons e es ih =>
    have : l ++ e :: es = (l ++ [e]) ++ es := by simp
    rw [this]
    have h1 := he e List.mem_cons_self
    exact ih (bracketed_snoc h fun _ => hr) ((running_append h1).2 hr) fun x hx => he x (List.mem_cons_of_mem _ hx)

/-- The invariant: `is_started` tells whether the debugger is running, and nothing was sent otherwise. -/
structure Traffic (s : State σ) : Prop where
  started : s.started = true ↔ Running s.out
  bracketed : Bracketed s.out

theorem Eff.traffic {F : Foot} {s s' : State σ} (h : Eff d F s s') (hs : s.started = true) (ht : Traffic s) : Traffic s' := by
  obtain ⟨ext, he, hq⟩ := h.out
  refine ⟨?_, ?_⟩
  · rw [h.started, he, running_traffic hq]; exact ht.started
  · rw [he]; exact bracketed_traffic ht.bracketed (ht.started.1 hs) hq

theorem Eff.quietTraffic {F : Foot} (hF : F.net = false) {s s' : State σ} (h : Eff d F s s') (ht : Traffic s) : Traffic s' := by
  refine ⟨?_, ?_⟩
  · rw [h.started, (h.quiet hF).1]; exact ht.started
  · rw [(h.quiet hF).1]; exact ht.bracketed

/-- Preservation of the invariant. -/
def KeepsT {α : Type} (p : K (State σ) α) : Prop := Keeps (fun s s' => Traffic s → Traffic s') p

theorem pre_T : Pre (fun s s' : State σ => Traffic s → Traffic s') := ⟨fun _ h => h, fun h h' t => h' (h t)⟩

theorem traffic_callStart (s : State σ) (h : Traffic s) : Traffic ((callStart d).run s).2 := by
  simp only [callStart, run_lift]
  split
  · rename_i b st _
    exact ⟨(running_start s.out b).symm, bracketed_snoc h.bracketed fun hb => by cases hb⟩
  all_goals exact ⟨h.started, h.bracketed⟩

theorem traffic_initPart (m command : Json) : KeepsT (initPart d m command) := by
  intro s h
  unfold initPart
  split
  · rw [run_bind, run_read, andThen_ok]
    cases hs : s.started with
    | true => simpa using h
    | false =>
      have h1 := traffic_callStart (d := d) s h
      simp only [Bool.false_eq_true, if_false, tryStart, run_bind]
      rcases hq : (callStart d).run s with ⟨r, s'⟩
      rw [hq] at h1
      cases r with
      | ok b =>
        cases b
        · simp only [andThen_ok, Bool.false_eq_true, if_false, run_bind, run_ofRes]
          cases m.cidx (lit "seq") <;> simpa using h1
        · simpa using h1
      | exc e => simpa using h1
      | ub w => simpa using h1
      | hang => simpa using h1
  · simpa using h

theorem traffic_dispatch (hd : Local d) (header m reply : Json) (name : Str) :
    KeepsT (dispatch d header m reply name (d.requestHandler false name)) := by
  cases hh : d.requestHandler false name with
  | some h => exact fun s ht => (eff_handler_plain hd hh m s).quietTraffic rfl ht
  | none =>
    intro s ht
    simp only [dispatch, whenStarted, run_bind, run_read, andThen_ok]
    cases hs : s.started with
    | false => simpa using ht
    | true =>
      simp only [if_true, run_bind]
      have e1 := eff_sendHeader (d := d) (F := ⟨true, true, true⟩) rfl header s
      rcases hq : (sendHeader d header).run s with ⟨r, s'⟩
      rw [hq] at e1
      have t1 := e1.traffic hs ht
      have hs' : s'.started = true := e1.started.trans hs
      cases r with
      | exc e => simpa using t1
      | ub w => simpa using t1
      | hang => simpa using t1
      | ok u =>
        simp only [andThen_ok]
        cases d.requestHandler true name with
        | some h => exact (eff_handler m h s').traffic hs' t1
        | none => exact (eff_forward (d := d) (F := ⟨true, true, true⟩) rfl m s').traffic hs' t1

theorem traffic_disconnect (command : Json) : KeepsT (disconnectPart d command) := by
  intro s h
  unfold disconnectPart
  split
  · simp only [run_bind, callStop, run_lift]
    split
    · rename_i st _
      simp only [andThen_ok, run_modify]
      refine ⟨?_, ?_⟩
      · constructor
        · intro h; cases h
        · intro h; exact absurd h (running_stop s.out)
      · exact bracketed_snoc h.bracketed fun hb => by cases hb
    all_goals exact ⟨h.started, h.bracketed⟩
  · simpa using h

theorem traffic_request (hd : Local d) (header m : Json) : KeepsT (processRequest d header m) := by
  refine Keeps.bind pre_T (Keeps.ofRes pre_T _) fun c => ?_
  refine Keeps.bind pre_T (traffic_initPart m c) fun r => ?_
  refine Keeps.bind pre_T (Keeps.ofRes pre_T _) fun name => ?_
  refine Keeps.bind pre_T (traffic_dispatch hd header m r name) fun _ => ?_
  exact Keeps.bind pre_T (traffic_disconnect c) fun _ => Keeps.pure pre_T _

theorem traffic_call (hd : Local d) (c : Call) : KeepsT (runCall d c) := by
  cases c with
  | request header m => exact traffic_request hd header m
  | event m =>
    refine Keeps.bind pre_T ?_ fun _ => Keeps.pure pre_T _
    refine Keeps.bind pre_T (Keeps.ofRes pre_T _) fun name => ?_
    cases hh : d.eventHandler name with
    | none => exact Keeps.pure pre_T _
    | some h => exact fun s ht => (eff_event_local hd hh m s).quietTraffic rfl ht

theorem traffic_hist (hd : Local d) {st : σ} {files : Str → Option Str} {replies acks : List Str} {steps : List Step}
    {s : State σ} (h : Hist d (initial st files replies acks) steps s) : Traffic s := by
  induction h with
  | nil =>
    refine ⟨?_, ?_⟩
    · constructor
      · intro h; cases h
      · rintro ⟨pre, post, h, _⟩; simp [initial] at h
    · intro pre e post h; simp [initial] at h
  | @snoc l s c r s' _ hrun ih =>
    have := (traffic_call hd c).attempt s ih
    rw [hrun] at this
    exact this

/-! ## Files -/

theorem pre_grow (d : Debugger σ) : Pre (Grow d) :=
  ⟨fun _ _ _ _ h => h, fun h h' p c hr hf => h' p c hr (h p c hr hf)⟩

theorem grow_call (c : Call) : Keeps (Grow d) (runCall d c) := by
  have hp := pre_grow d
  cases c with
  | event m =>
    refine Keeps.bind hp ?_ fun _ => Keeps.pure hp _
    refine Keeps.bind hp (Keeps.ofRes hp _) fun name => ?_
    cases d.eventHandler name with
    | none => exact Keeps.pure hp _
    | some h => exact fun s => (eff_event m h s).files
  | request header m =>
    refine Keeps.bind hp (Keeps.ofRes hp _) fun c => ?_
    refine Keeps.bind hp (fun s => (calm_initPart m c s).files) fun r => ?_
    refine Keeps.bind hp (Keeps.ofRes hp _) fun name => ?_
    refine Keeps.bind hp ?_ fun _ => Keeps.bind hp ?_ fun _ => Keeps.pure hp _
    · cases d.requestHandler false name with
      | some h => exact fun s => (eff_handler m h s).files
      | none =>
        refine Keeps.bind hp (Keeps.read hp _) fun b => ?_
        cases b
        · exact Keeps.pure hp _
        · refine Keeps.bind hp (fun s => (eff_sendHeader (d := d) (F := ⟨true, true, true⟩) rfl header s).files) fun _ => ?_
          cases d.requestHandler true name with
          | some h => exact fun s => (eff_handler m h s).files
          | none => exact fun s => (eff_forward (d := d) (F := ⟨true, true, true⟩) rfl m s).files
    · unfold disconnectPart
      split
      · refine Keeps.bind hp (fun s => (calm_callStop s).files) fun _ => ?_
        refine Keeps.bind hp (Keeps.modify fun s _ _ _ h => h) fun _ => ?_
        refine Keeps.bind hp (Keeps.modify fun s _ _ _ h => h) fun _ => ?_
        exact Keeps.modify fun s _ _ _ h => h
      · exact Keeps.pure hp _

theorem grow_hist {s₀ s : State σ} {steps : List Step} (h : Hist d s₀ steps s) : Grow d s₀ s := by
  induction h with
  | nil => exact (pre_grow d).refl _
  | @snoc l s c r s' _ hrun ih =>
    have := (grow_call (d := d) c).attempt s
    rw [hrun] at this
    exact (pre_grow d).trans ih this

end Xeus.Dbg
