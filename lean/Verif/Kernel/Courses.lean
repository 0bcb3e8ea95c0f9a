import Verif.Kernel.Requests

/-!
# Consequences of the courses of requests (no property statements here)
-/

namespace Xeus

open Spec K

variable {σ : Type}

theorem atCall_parent {env : Env} {m : XMessage} {c : Chan} {w w₁ : World σ} {n : Int} {pre : List Ev} {k : Call}
    (h : AtCall env m c w n pre k w₁) : w₁.parent = curParent m c w := by
  funext c'
  unfold curParent
  split
  · rename_i hc; rw [hc, h.cur]
  · rename_i hc; exact h.other c' hc

/-- All events of a request that calls user code. -/
theorem concludes_events {env : Env} {m : XMessage} {c : Chan} {w w₁ w₂ w₂' : World σ} {n : Int} {pre evs : List Ev}
    {k : Call} {x : Res Unit × World σ} (hat : AtCall env m c w n pre k w₁) (hu : URel env w₁ w₂)
    (ho : w₂'.out = w₂.out) (hc : Concludes env m c w₂' evs x) :
    ∃ b outs i, IsStatus env c "busy" m.body.header b ∧ IsStatus env c "idle" m.body.header i ∧
      (∀ e ∈ outs, IsOutput env (curParent m c w .shell) e) ∧
      x.2.out = w.out ++ ([b] ++ pre ++ [.call k] ++ outs ++ evs ++ [i]) := by
  obtain ⟨b, hb, hb'⟩ := hat.out
  obtain ⟨outs, ho', hp⟩ := hu.out
  obtain ⟨i, hi, hi'⟩ := hc.out
  refine ⟨b, outs, i, hb, hi, ?_, by rw [hi', ho, ho', hb']; simp⟩
  intro e he
  have := (hp e he).output
  rwa [atCall_parent hat] at this

theorem announce_no_reply {env : Env} {m : XMessage} {c : Chan} {w : World σ} {f : ExecFields} {pre : List Ev}
    (h : ExecAnnounce env m c w f pre) : ∀ e ∈ pre, ¬ AnyReply e := by
  unfold ExecAnnounce at h
  split at h
  · subst h; simp
  · obtain ⟨ev, rfl, m', wire, rfl, _⟩ := h
    intro e he
    obtain rfl := List.mem_singleton.mp he
    rintro ⟨_, _, _, h⟩; cases h

theorem events_replies {env : Env} {m : XMessage} {c : Chan} {b i : Ev} {pre outs evs : List Ev} {k : Call} {p : Parent}
    (hb : IsStatus env c "busy" m.body.header b) (hi : IsStatus env c "idle" m.body.header i)
    (hpre : ∀ e ∈ pre, ¬ AnyReply e) (ho : ∀ e ∈ outs, IsOutput env p e) :
    repliesIn ([b] ++ pre ++ [.call k] ++ outs ++ evs ++ [i]) = repliesIn evs := by
  have h1 : repliesIn [b] = [] := repliesIn_none (by simpa using isStatus_not_reply hb)
  have h2 : repliesIn pre = [] := repliesIn_none hpre
  have h3 : repliesIn outs = [] := repliesIn_none fun e he => output_not_reply (ho e he)
  have h4 : repliesIn [i] = [] := repliesIn_none (by simpa using isStatus_not_reply hi)
  simp only [repliesIn_append, h1, h2, h3, h4, repliesIn, List.nil_append, List.append_nil]

theorem reply_one {env : Env} {c : Chan} {ids : List Str} {h : Json} {t : Str} {e : Ev} (hr : IsReply env c ids h t e) :
    repliesIn [e] = [e] := repliesIn_all (by simpa using isReply_any hr)

/-- The requests served by returning the answer of user code are answered once. -/
theorem verbatim_one {env : Env} {I : Interp σ} {q : Multipart} {m : XMessage} {c : Chan} {w : World σ} {Ω : Type}
    {sem : Ω → K (World σ) Val} {k : Call} {p : Prog σ Ω Json} {t : String} {Md : Json → Prop}
    (hu : Keeps (URel env) (p.exec sem)) (hv : Verbatim env I q m c w sem k p t Md)
    (hret : Returns env m c w w.count k sem p (Printable env.eh)) :
    ((dispatch env I q c).run w).1 = .ok () ∧ ∃ es rep, ((dispatch env I q c).run w).2.out = w.out ++ es ∧
      repliesIn es = [rep] ∧ IsReply env c m.ids m.body.header (lit t) rep := by
  obtain ⟨w₁, hat, hok, _⟩ := hv
  obtain ⟨j, w₂, hrun, hj⟩ := hret _ _ hat
  have hk := hu w₁
  rw [hrun] at hk
  rcases hok j w₂ hrun with ⟨_, md, rep, _, hrep, hc⟩ | ⟨h, _⟩
  · obtain ⟨b, outs, i, hb, hi, hp, hout⟩ := concludes_events hat hk rfl hc
    refine ⟨hc.ok, _, rep, hout, ?_, isReplyWith_isReply hrep⟩
    rw [events_replies hb hi (by simp) hp, reply_one (isReplyWith_isReply hrep)]
  · exact absurd hj h

theorem handled_replies {env : Env} {m : XMessage} {c : Chan} {w : World σ} {evs : List Ev} {x : Res Unit × World σ}
    (h : Handled env m c w evs x) : ∃ es, x.2.out = w.out ++ es ∧ repliesIn es = repliesIn evs := by
  obtain ⟨b, i, hb, hi, ho⟩ := h.out
  refine ⟨_, ho, ?_⟩
  have h1 : repliesIn [b] = [] := repliesIn_none (by simpa using isStatus_not_reply hb)
  have h4 : repliesIn [i] = [] := repliesIn_none (by simpa using isStatus_not_reply hi)
  simp only [repliesIn_append, h1, h4, List.nil_append, List.append_nil]

/-! ## Calls -/

theorem callsIn_append (l r : List Ev) : callsIn (l ++ r) = callsIn l ++ callsIn r := by
  induction l with
  | nil => rfl
  | cons e l ih => cases e <;> simp [callsIn, ih]

theorem callsIn_none {l : List Ev} (h : ∀ k, Ev.call k ∉ l) : callsIn l = [] := by
  induction l with
  | nil => rfl
  | cons e l ih =>
    have := ih fun k hk => h k (List.mem_cons_of_mem _ hk)
    cases e <;> simp only [callsIn, this]
    exact absurd List.mem_cons_self (h _)

theorem output_not_call {env : Env} {p : Parent} {k : Call} : ¬ IsOutput env p (.call k) := by
  rintro (⟨_, _, _, h, _⟩ | ⟨_, _, h, _⟩) <;> cases h

theorem status_not_call {env : Env} {c : Chan} {s : String} {h : Json} {k : Call} : ¬ IsStatus env c s h (.call k) := by
  rintro ⟨_, _, h, _⟩; cases h

theorem reply_not_call {env : Env} {c : Chan} {ids : List Str} {h : Json} {t : Str} {k : Call} :
    ¬ IsReply env c ids h t (.call k) := by
  rintro ⟨_, _, h, _⟩; cases h

theorem announce_no_call {env : Env} {m : XMessage} {c : Chan} {w : World σ} {f : ExecFields} {pre : List Ev}
    (h : ExecAnnounce env m c w f pre) : ∀ k, Ev.call k ∉ pre := by
  unfold ExecAnnounce at h
  split at h
  · subst h; simp
  · obtain ⟨ev, rfl, m', wire, rfl, _⟩ := h
    simp

/-- Events of a request that calls user code once. -/
def CallShape (env : Env) (m : XMessage) (c : Chan) (w : World σ) (pre : List Ev) (k : Call) (x : Res Unit × World σ) :
    Prop :=
  ∃ b outs tl, IsStatus env c "busy" m.body.header b ∧ (∀ e ∈ outs, IsOutput env (curParent m c w .shell) e) ∧
    (∀ k, Ev.call k ∉ tl) ∧ x.2.out = w.out ++ ([b] ++ pre ++ [.call k] ++ outs ++ tl)

theorem callShape_of {env : Env} {m : XMessage} {c : Chan} {w w₁ w₂ : World σ} {n : Int} {pre evs : List Ev}
    {k : Call} {x : Res Unit × World σ} (hat : AtCall env m c w n pre k w₁) (hu : URel env w₁ w₂)
    (he : ∀ k, Ev.call k ∉ evs) (ho : x.2.out = w₂.out ++ evs) : CallShape env m c w pre k x := by
  obtain ⟨b, hb, hb'⟩ := hat.out
  obtain ⟨outs, ho', hp⟩ := hu.out
  refine ⟨b, outs, evs, hb, ?_, he, by rw [ho, ho', hb']; simp⟩
  intro e he
  have := (hp e he).output
  rwa [atCall_parent hat] at this

theorem callShape_concludes {env : Env} {m : XMessage} {c : Chan} {w w₁ w₂ w₂' : World σ} {n : Int} {pre evs : List Ev}
    {k : Call} {x : Res Unit × World σ} (hat : AtCall env m c w n pre k w₁) (hu : URel env w₁ w₂)
    (ho : w₂'.out = w₂.out) (he : ∀ k, Ev.call k ∉ evs) (hc : Concludes env m c w₂' evs x) :
    CallShape env m c w pre k x := by
  obtain ⟨i, hi, hi'⟩ := hc.out
  refine callShape_of hat hu (evs := evs ++ [i]) ?_ (by rw [hi', ho])
  intro k hk
  rcases List.mem_append.mp hk with h | h
  · exact he k h
  · rw [← List.mem_singleton.mp h] at hi
    exact status_not_call hi

theorem CallShape.calls {env : Env} {m : XMessage} {c : Chan} {w : World σ} {pre : List Ev} {k : Call}
    {x : Res Unit × World σ} (h : CallShape env m c w pre k x) (hp : ∀ k, Ev.call k ∉ pre) :
    ∃ es, x.2.out = w.out ++ es ∧ callsIn es = [k] := by
  obtain ⟨b, outs, tl, hb, ho, ht, hout⟩ := h
  refine ⟨_, hout, ?_⟩
  have h1 : callsIn [b] = [] := callsIn_none fun k hk => by
    rw [← List.mem_singleton.mp hk] at hb; exact status_not_call hb
  have h3 : callsIn outs = [] := callsIn_none fun k hk => output_not_call (ho _ hk)
  simp only [callsIn_append, h1, callsIn_none hp, h3, callsIn_none ht, callsIn, List.nil_append, List.append_nil]

/-- What remains when user code throws or does not end. -/
theorem callShape_else {env : Env} {m : XMessage} {c : Chan} {w w₁ : World σ} {n : Int} {pre : List Ev} {k : Call}
    {x : Res Unit × World σ} {Ω α : Type} {sem : Ω → K (World σ) Val} {p : Prog σ Ω α}
    (hu : Keeps (URel env) (p.exec sem)) (hat : AtCall env m c w n pre k w₁)
    (hok : ∀ a w₂, (p.exec sem).run w₁ = (.ok a, w₂) → URel env w₁ w₂ → CallShape env m c w pre k x)
    (hstd : ∀ e w₂, (p.exec sem).run w₁ = (.exc e, w₂) → e.isStd = true → Concludes env m c w₂ [.threw e] x)
    (hfor : ∀ e w₂, (p.exec sem).run w₁ = (.exc e, w₂) → e.isStd = false →
        x = (.exc e, { w₂ with out := w₂.out ++ [.threw e] }))
    (hdiv : Diverges sem p w₁ x) : CallShape env m c w pre k x := by
  have hk := hu w₁
  rcases hrun : (p.exec sem).run w₁ with ⟨y, w₂⟩
  rw [hrun] at hk
  cases y with
  | ok a => exact hok a w₂ hrun hk
  | exc e =>
    cases he : e.isStd with
    | true => exact callShape_concludes hat hk rfl (by simp) (hstd e w₂ hrun he)
    | false =>
      have := hfor e w₂ hrun he
      subst this
      exact callShape_of hat hk (evs := [.threw e]) (by simp) rfl
  | ub s =>
    have := hdiv.1 s w₂ hrun
    subst this
    exact callShape_of hat hk (evs := []) (by simp) (by simp)
  | hang =>
    have := hdiv.2 w₂ hrun
    subst this
    exact callShape_of hat hk (evs := []) (by simp) (by simp)

theorem verbatim_shape {env : Env} {I : Interp σ} {q : Multipart} {m : XMessage} {c : Chan} {w : World σ} {Ω : Type}
    {sem : Ω → K (World σ) Val} {k : Call} {p : Prog σ Ω Json} {t : String} {Md : Json → Prop}
    (hu : Keeps (URel env) (p.exec sem)) (hv : Verbatim env I q m c w sem k p t Md) :
    CallShape env m c w [] k ((dispatch env I q c).run w) := by
  obtain ⟨w₁, hat, hok, hstd, hfor, hdiv⟩ := hv
  refine callShape_else hu hat (fun j w₂ hrun hk => ?_) hstd hfor hdiv
  rcases hok j w₂ hrun with ⟨_, md, rep, _, hrep, hc⟩ | ⟨_, hc⟩
  · refine callShape_concludes hat hk rfl (fun k hk => ?_) hc
    rw [← List.mem_singleton.mp hk] at hrep
    exact reply_not_call (isReplyWith_isReply hrep)
  · exact callShape_concludes hat hk rfl (by simp) hc

theorem kernelInfo_shape {env : Env} (hl : ∀ e, env.log e = .ok ()) {I : Interp σ} {q : Multipart} {m : XMessage}
    {c : Chan} {w : World σ} (hv : KernelInfoCourse env I q m c w) :
    CallShape env m c w [] .kernelInfo ((dispatch env I q c).run w) := by
  obtain ⟨w₁, hat, hok, hbad, hstd, hfor, hdiv⟩ := hv
  refine callShape_else (keeps_user hl _) hat (fun j w₂ hrun hk => ?_) hstd hfor hdiv
  by_cases ho : j.isObj = true ∨ j = .null
  · obtain ⟨j', _, _, ⟨_, rep, hrep, hc⟩ | ⟨_, hc⟩⟩ := hok j w₂ hrun ho
    · refine callShape_concludes hat hk rfl (fun k hk => ?_) hc
      rw [← List.mem_singleton.mp hk] at hrep
      exact reply_not_call (isReplyWith_isReply hrep)
    · exact callShape_concludes hat hk rfl (by simp) hc
  · exact callShape_concludes hat hk rfl (by simp) (hbad j w₂ hrun ho)

theorem shutdown_shape {env : Env} (hl : ∀ e, env.log e = .ok ()) {I : Interp σ} {q : Multipart} {m : XMessage}
    {c : Chan} {w : World σ} {restart : Bool} (hv : ShutdownCourse env I q m c w restart) :
    CallShape env m c w [] .shutdown ((dispatch env I q c).run w) := by
  obtain ⟨w₁, hat, hok, hstd, hfor, hdiv⟩ := hv
  refine callShape_else (keeps_user hl _) hat (fun _ w₂ hrun hk => ?_) hstd hfor hdiv
  obtain ⟨n, rep, ⟨_, _, rfl, _⟩, ⟨_, _, rfl, _⟩, hc⟩ := hok w₂ hrun
  exact callShape_concludes hat hk rfl (by simp) hc

theorem abortAll_no_call {env : Env} {qs : List Multipart} {ab : List Ev} (h : AbortAll env qs ab) (k : Call) :
    Ev.call k ∉ ab := by
  intro hk
  obtain ⟨_, _, _, h⟩ := abortAll_reply h _ hk
  cases h

theorem exec_shape {env : Env} (hl : ∀ e, env.log e = .ok ()) {I : Interp σ} {q : Multipart} {m : XMessage} {c : Chan}
    {w : World σ} {f : ExecFields} (hv : ExecCourse env I q m c w f) :
    ∃ pre, ExecAnnounce env m c w f pre ∧ CallShape env m c w pre (execCall w f) ((dispatch env I q c).run w) := by
  obtain ⟨w₁, pre, hat, hann, hstd, hfor, hbad, hok, hdiv⟩ := hv
  refine ⟨pre, hann, callShape_else (keeps_user hl _) hat (fun j w₂ hrun hk => ?_) hstd hfor hdiv⟩
  by_cases ho : j.isObj = true ∨ j = .null
  · cases hst : strField j "status" "error" with
    | none => exact callShape_concludes hat hk rfl (by simp) (hbad j w₂ hrun (.inr hst))
    | some s =>
      obtain ⟨j', _, _, ⟨_, md, rep, _, hrep, hend⟩ | ⟨_, hc⟩⟩ := hok j w₂ s hrun ho hst
      · obtain ⟨_, _, rfl, _⟩ := hrep
        by_cases hab : Aborts f s
        · obtain ⟨done, stuck, rest, ab, hsq, _, habs, _, _, _, hend, hub⟩ := hend.2 hab
          by_cases hu : ∃ q ∈ stuck, Undefined env.J env.auth q
          · obtain ⟨why, w₃, hx, ho, _⟩ := hub hu
            refine callShape_of hat hk (evs := _ ++ ab) ?_ (by rw [hx]; exact ho)
            intro k hk
            simp only [List.mem_append, List.mem_singleton] at hk
            rcases hk with hk | hk
            · cases hk
            · exact abortAll_no_call habs k hk
          · have hc := hend fun q' hq' h => hu ⟨q', hq', h⟩
            refine callShape_concludes hat hk (by rfl) ?_ hc
            intro k hk
            simp only [List.mem_append, List.mem_singleton] at hk
            rcases hk with hk | hk
            · cases hk
            · exact abortAll_no_call habs k hk
        · exact callShape_concludes hat hk (by rfl) (by simp) (hend.1 hab)
      · exact callShape_concludes hat hk rfl (by simp) hc
  · exact callShape_concludes hat hk rfl (by simp) (hbad j w₂ hrun (.inl ho))

theorem pub_no_reply {c : Chan} {m : PubMessage} {wire : Multipart} : repliesIn [.pub c m wire] = [] := rfl

end Xeus
