import Verif.Kernel.Requests
import Verif.Kernel.CommSpec
import Verif.Comm.Lemmas

/-!
# Exact runs of comm messages (no property statements here)
-/

namespace Xeus

open Spec K

variable {σ : Type}

/-! ## Operations on comms -/

theorem usable_iff {s : Comms} {t : Nat} : Usable s t ↔ ∃ n, alGet t s.nodes = some n ∧ n.managed = true := Iff.rfl

theorem created_of {s : Comms} {t : Nat} {id : Str} {mv : Option Bool} {f g : Option Nat} (ht : Usable s t) :
    ∃ s', (s.newObj ⟨t, id, mv, f, g⟩).registerComm t id s.next = .ok s' ∧ Created s s.next ⟨t, id, mv, f, g⟩ s' := by
  obtain ⟨n, hn, hm⟩ := ht
  refine ⟨{ s.newObj ⟨t, id, mv, f, g⟩ with reg := alSet id s.next s.reg }, ?_, ?_⟩
  · simp [Comms.registerComm, Comms.node, Comms.newObj, hn, hm]
  · refine ⟨rfl, rfl, fun b => ?_, fun i => ?_, rfl, rfl⟩
    · simp only [Comms.newObj, alGet_set, eq_comm]
    · simp only [alGet_set, eq_comm]

theorem unusable_ub {s : Comms} {t : Nat} (ht : ¬ Usable s t) (id : Str) (a : Nat) :
    (∃ why, s.registerComm t id a = .ub why) ∧ ∃ why, s.unregisterComm t id = .ub why := by
  unfold Comms.registerComm Comms.unregisterComm Comms.node
  cases hn : alGet t s.nodes with
  | none => simp
  | some n =>
    cases hm : n.managed with
    | false => simp [hm]
    | true => exact absurd ⟨n, hn, hm⟩ ht

theorem destroyed_or {s : Comms} (a : Nat) :
    (∃ s', s.destroy a = .ok s' ∧ Destroyed s a s') ∨ (Indestructible s a ∧ ∃ why, s.destroy a = .ub why) := by
  unfold Comms.destroy Comms.obj
  cases hc : alGet a s.objs with
  | none => exact .inr ⟨.inl hc, by simp⟩
  | some c =>
    simp only [Res.bind_ok]
    cases hm : c.moved with
    | none => exact .inr ⟨.inr ⟨c, hc, .inl hm⟩, _, rfl⟩
    | some b =>
      cases b with
      | true =>
        simp only [Res.pure_def]
        refine .inl ⟨_, rfl, rfl, fun x => ?_, ⟨c, hc, .inl ⟨hm, rfl⟩⟩, rfl, rfl⟩
        simp only [alGet_del, eq_comm]
      | false =>
        simp only
        by_cases ht : Usable s c.target
        · obtain ⟨n, hn, hu⟩ := ht
          refine .inl ⟨{ s with reg := alDel c.id s.reg, objs := alDel a s.objs }, ?_, rfl, fun x => ?_,
            ⟨c, hc, .inr ⟨hm, ⟨n, hn, hu⟩, fun i => ?_⟩⟩, rfl, rfl⟩
          · simp [Comms.unregisterComm, Comms.node, hn, hu]
          · simp only [alGet_del, eq_comm]
          · simp only [alGet_del, eq_comm]
        · obtain ⟨why, h⟩ := (unusable_ub ht c.id 0).2
          exact .inr ⟨.inr ⟨c, hc, .inr ⟨hm, ht⟩⟩, why, by simp [h]⟩

theorem erased_del (s : Comms) (id : Str) : Erased s id { s with reg := alDel id s.reg } :=
  ⟨rfl, rfl, fun i => by simp only [alGet_del, eq_comm], rfl, rfl⟩

/-! ## Lookups -/

theorem cidx_find {j : Json} {k : Str} {v : Json} (h : j.find? k = some v) : j.cidx k = .ok v := by
  cases j with
  | obj l =>
    simp only [Json.find?] at h
    simp [Json.cidx, h]
  | _ => simp [Json.find?] at h

theorem cidx_missing {j : Json} {k : Str} (ho : j.isObj = true) (h : j.find? k = none) : ∃ why, j.cidx k = .ub why := by
  cases j with
  | obj l =>
    simp only [Json.find?] at h
    simp [Json.cidx, h]
  | _ => simp [Json.isObj] at ho

theorem cidx_notText {j : Json} {k : String} (h : NotText j k) :
    ((j.cidx (lit k)).bind fun v => v.getStr) = .exc .typeError := by
  rcases h with h | ⟨v, h, hv⟩
  · cases j with
    | obj l => simp [Json.isObj] at h
    | _ => rfl
  · rw [cidx_find h]
    cases v with
    | str s => exact absurd rfl (hv s)
    | _ => rfl

theorem notText_exc {j : Json} {k : String} (h : NotText j k) {α : Type} (f : Json → Res α)
    (hf : ∀ v, (∀ s, v ≠ .str s) → f v = .exc .typeError) : (j.cidx (lit k)).bind f = .exc .typeError := by
  rcases h with h | ⟨v, h, hv⟩
  · cases j with
    | obj l => simp [Json.isObj] at h
    | _ => rfl
  · rw [cidx_find h]
    exact hf v hv

theorem getStr_exc {v : Json} (h : ∀ s, v ≠ .str s) : v.getStr = .exc .typeError := by
  cases v with
  | str s => exact absurd rfl (h s)
  | _ => rfl

theorem toXguid_exc {v : Json} (h : ∀ s, v ≠ .str s) : toXguid v = .exc .typeError := by
  simp [toXguid, getStr_exc h]

theorem msgLookup_ok {s : Comms} {content : Json} {id : Str} {a : Nat} {cm : Comm}
    (h1 : content.find? (lit "comm_id") = some (.str id)) (h2 : id.length ≤ 55) (h3 : alGet id s.reg = some a)
    (h4 : alGet a s.objs = some cm) : s.msgLookup content = .ok (id, cm) := by
  simp [Comms.msgLookup, cidx_find h1, toXguid, Json.getStr, h2, h3, Comms.obj, h4]

theorem msgLookup_unknown {s : Comms} {content : Json} {id : Str}
    (h1 : content.find? (lit "comm_id") = some (.str id)) (h2 : id.length ≤ 55) (h3 : alGet id s.reg = none) :
    s.msgLookup content = .exc (.runtime "No such comm registered") := by
  simp [Comms.msgLookup, cidx_find h1, toXguid, Json.getStr, h2, h3]

theorem msgLookup_dangling {s : Comms} {content : Json} {id : Str} {a : Nat}
    (h1 : content.find? (lit "comm_id") = some (.str id)) (h2 : id.length ≤ 55) (h3 : alGet id s.reg = some a)
    (h4 : alGet a s.objs = none) : ∃ why, s.msgLookup content = .ub why := by
  simp [Comms.msgLookup, cidx_find h1, toXguid, Json.getStr, h2, h3, Comms.obj, h4]

theorem msgLookup_notText {s : Comms} {content : Json} (h : NotText content "comm_id") :
    s.msgLookup content = .exc .typeError :=
  notText_exc h _ fun v hv => by simp [toXguid_exc hv]

theorem msgLookup_missing {s : Comms} {content : Json} (ho : content.isObj = true)
    (h : content.find? (lit "comm_id") = none) : ∃ why, s.msgLookup content = .ub why := by
  obtain ⟨why, hw⟩ := cidx_missing ho h
  exact ⟨why, by simp [Comms.msgLookup, hw]⟩

theorem openLookup_unknown {s : Comms} {content : Json} {name : Str}
    (h1 : content.find? (lit "target_name") = some (.str name)) (h2 : alGet name s.names = none) :
    s.openLookup content = .exc (.runtime "No such comm target registered") := by
  simp [Comms.openLookup, cidx_find h1, Json.getStr, h2]

theorem openLookup_notText {s : Comms} {content : Json} (h : NotText content "target_name") :
    s.openLookup content = .exc .typeError :=
  notText_exc h _ fun v hv => by simp [getStr_exc hv]

theorem openLookup_idNotText {s : Comms} {content : Json} {name : Str} {t : Nat} {n : Target}
    (h1 : content.find? (lit "target_name") = some (.str name)) (h2 : alGet name s.names = some t)
    (h3 : alGet t s.nodes = some n) (h : NotText content "comm_id") : s.openLookup content = .exc .typeError := by
  have h' := notText_exc h (α := Nat × Option Nat × Comms) (fun j => (toXguid j).bind fun id =>
    (s.construct t id).bind fun r => .ok (r.1, n.callback, r.2)) fun v hv => by simp [toXguid_exc hv]
  simp [Comms.openLookup, cidx_find h1, Json.getStr, h2, Comms.node, h3]
  exact h'

theorem openLookup_missing {s : Comms} {content : Json} (ho : content.isObj = true)
    (h : content.find? (lit "target_name") = none) : ∃ why, s.openLookup content = .ub why := by
  obtain ⟨why, hw⟩ := cidx_missing ho h
  exact ⟨why, by simp [Comms.openLookup, hw]⟩

theorem openLookup_idMissing {s : Comms} {content : Json} {name : Str} {t : Nat} {n : Target}
    (h1 : content.find? (lit "target_name") = some (.str name)) (h2 : alGet name s.names = some t)
    (h3 : alGet t s.nodes = some n) (ho : content.isObj = true) (h : content.find? (lit "comm_id") = none) :
    ∃ why, s.openLookup content = .ub why := by
  obtain ⟨why, hw⟩ := cidx_missing ho h
  exact ⟨why, by simp [Comms.openLookup, cidx_find h1, Json.getStr, h2, Comms.node, h3, hw]⟩

/-! ## Runs -/

theorem run_onComms {α : Type} (act : CommAct) (f : Comms → Res (α × Comms)) (w : World σ) :
    (onComms act f).run w = match f w.comm with
      | .ok r => (.ok r.1, { w with comm := r.2, acts := w.acts ++ [act] })
      | .exc e => (.exc e, w)
      | .ub s => (.ub s, w)
      | .hang => (.hang, w) := by
  simp only [onComms, K.run_lift]
  cases f w.comm <;> rfl

/-- The second half of `comm_open`. -/
def openFinish (a : Nat) (res : Except Exc Unit) : K (World σ) Unit := do
  onComms (.op (.destroy a) []) fun s => do
    let s ← s.destroy a
    return ((), s)
  match res with
  | .ok _ => return ()
  | .error e => K.throw e

theorem run_openFinish_ok {a : Nat} {res : Except Exc Unit} {w : World σ} {s' : Comms} (h : w.comm.destroy a = .ok s') :
    (openFinish a res).run w = (match res with | .ok _ => .ok () | .error e => .exc e,
      { w with comm := s', acts := w.acts ++ [.op (.destroy a) []] }) := by
  simp only [openFinish, K.run_bind, run_onComms, h]
  cases res <;> simp

theorem run_openFinish_ub {a : Nat} {res : Except Exc Unit} {w : World σ} {why : String}
    (h : w.comm.destroy a = .ub why) : (openFinish a res).run w = (.ub why, w) := by
  simp only [openFinish, K.run_bind, run_onComms, h]
  simp

theorem run_commOpen {env : Env} {I : Interp σ} {m : XMessage} {w : World σ} {a : Nat} {cb : Option Nat} {s₁ : Comms}
    (h : w.comm.openLookup m.body.content = .ok (a, cb, s₁)) :
    (commOpen env I m).run w = K.andThen (K.captured ((match cb with
      | none => K.throw (.runtime "bad_function_call")
      | some cb => userCall (Op.sem env) (.target cb a m) (I.target cb a m)).run
        { w with comm := s₁, acts := w.acts ++ [CommAct.opened m.body.content] })) fun res w' => (openFinish a res).run w' := by
  simp only [commOpen, K.run_bind, run_onComms, h, Res.bind_ok, Res.pure_def, K.andThen_ok, K.run_attempt, openFinish]
  rfl

theorem run_commOpen_exc {env : Env} {I : Interp σ} {m : XMessage} {w : World σ} {e : Exc}
    (h : w.comm.openLookup m.body.content = .exc e) : (commOpen env I m).run w = (.exc e, w) := by
  simp only [commOpen, K.run_bind, run_onComms, h, Res.bind_exc, K.andThen_exc]

theorem run_commOpen_ub {env : Env} {I : Interp σ} {m : XMessage} {w : World σ} {s : String}
    (h : w.comm.openLookup m.body.content = .ub s) : (commOpen env I m).run w = (.ub s, w) := by
  simp only [commOpen, K.run_bind, run_onComms, h, Res.bind_ub, K.andThen_ub]

section
variable {env : Env} (hs : Sane env) (I : Interp σ) {q : Multipart} {m : XMessage} (c : Chan)
  (ha : Accepted env.C env.J env.auth q m) (w : World σ)
include hs ha

theorem open_course (hr : IsReq m .commOpen) {name id : Str} {t cb : Nat} {n : Target}
    (h1 : m.body.content.find? (lit "target_name") = some (.str name))
    (h2 : m.body.content.find? (lit "comm_id") = some (.str id)) (h3 : id.length ≤ 55)
    (h4 : alGet name w.comm.names = some t) (h5 : alGet t w.comm.nodes = some n) (h6 : n.managed = true)
    (h7 : n.callback = some cb) : OpenCourse env I q m c w t cb id := by
  obtain ⟨w₀, hb, hok, hstd, hfor, hub, hhang⟩ := dispatch_req hs I c ha hr w
  obtain ⟨s₁, hs₁, hcr⟩ := created_of (s := w.comm) (t := t) (id := id) (mv := none) (f := none) (g := none) ⟨n, h5, h6⟩
  have hl : w₀.comm.openLookup m.body.content = .ok (w.comm.next, some cb, s₁) := by
    rw [hb.comm, openLookup_ok h1 h2 h3 h4 h5]
    simp [Comms.construct, hs₁, h7]
  have hrun := run_commOpen (env := env) (I := I) hl
  simp only at hrun
  have hb' : Begun env m c { w with comm := s₁ } { w₀ with comm := s₁, acts := w₀.acts ++ [CommAct.opened m.body.content] } :=
    ⟨hb.parent, hb.st, hb.count, hb.input, hb.hist, rfl, hb.shellQ, hb.stdinQ, hb.guids, hb.clocks, hb.out⟩
  refine ⟨w.comm.next, s₁, _, hcr, atCall_of_begun hb' _, ?_, ?_, ?_, ?_, ?_⟩
  · intro w₂ hu
    rw [call_ok hu, K.captured_ok, K.andThen_ok] at hrun
    rcases destroyed_or (s := w₂.comm) w.comm.next with ⟨s', hd, hD⟩ | ⟨hI, why, hd⟩
    · rw [run_openFinish_ok hd] at hrun
      refine .inl ⟨s', hD, concludes_mk ?_ ?_ ?_ (hok _ hrun)⟩
      · exact ⟨rfl, rfl, rfl, rfl, rfl, rfl, rfl⟩
      · rfl
      · simp
    · rw [run_openFinish_ub hd] at hrun
      refine .inr ⟨hI, why, ?_⟩
      rw [hub _ _ hrun]
      simp
  · intro e w₂ hu he
    rw [call_exc hu, K.captured_exc, K.andThen_ok] at hrun
    rcases destroyed_or (s := w₂.comm) w.comm.next with ⟨s', hd, hD⟩ | ⟨hI, why, hd⟩
    · rw [run_openFinish_ok (by exact hd)] at hrun
      refine .inl ⟨s', hD, concludes_mk ?_ ?_ ?_ (hstd e _ he hrun)⟩
      · exact ⟨rfl, rfl, rfl, rfl, rfl, rfl, rfl⟩
      · rfl
      · rfl
    · rw [run_openFinish_ub (by exact hd)] at hrun
      exact .inr ⟨hI, why, hub _ _ hrun⟩
  · intro e w₂ hu he
    rw [call_exc hu, K.captured_exc, K.andThen_ok] at hrun
    rcases destroyed_or (s := w₂.comm) w.comm.next with ⟨s', hd, hD⟩ | ⟨hI, why, hd⟩
    · rw [run_openFinish_ok (by exact hd)] at hrun
      exact .inl ⟨s', _, hD, hfor e _ he hrun, rfl, rfl⟩
    · rw [run_openFinish_ub (by exact hd)] at hrun
      exact .inr ⟨hI, why, hub _ _ hrun⟩
  · intro s w₂ hu
    rw [call_ub hu, K.captured_ub, K.andThen_ub] at hrun
    exact hub _ _ hrun
  · intro w₂ hu
    rw [call_hang hu, K.captured_hang, K.andThen_hang] at hrun
    exact hhang _ hrun

theorem open_refused (hr : IsReq m .commOpen) {e : Exc} (he : e.isStd = true)
    (h : w.comm.openLookup m.body.content = .exc e) : Handled env m c w [] ((dispatch env I q c).run w) :=
  handled_bad hs I c ha hr w fun w₀ _ _ hc => ⟨e, he, run_commOpen_exc (by rw [hc]; exact h)⟩

theorem open_ub (hr : IsReq m .commOpen) {s : String} (h : w.comm.openLookup m.body.content = .ub s) :
    ∃ w', (dispatch env I q c).run w = (.ub s, w') := by
  obtain ⟨w₀, hb, _, _, _, hub, _⟩ := dispatch_req hs I c ha hr w
  exact ⟨_, hub s _ (run_commOpen_ub (by rw [hb.comm]; exact h))⟩

/-- Without a callback the local comm is destroyed untouched. -/
theorem open_empty (hr : IsReq m .commOpen) {name id : Str} {t : Nat} {n : Target}
    (h1 : m.body.content.find? (lit "target_name") = some (.str name))
    (h2 : m.body.content.find? (lit "comm_id") = some (.str id)) (h3 : id.length ≤ 55)
    (h4 : alGet name w.comm.names = some t) (h5 : alGet t w.comm.nodes = some n) (h6 : n.managed = true)
    (h7 : n.callback = none) : ∃ why w', (dispatch env I q c).run w = (.ub why, w') := by
  obtain ⟨w₀, hb, _, _, _, hub, _⟩ := dispatch_req hs I c ha hr w
  obtain ⟨s₁, hs₁, hcr⟩ := created_of (s := w.comm) (t := t) (id := id) (mv := none) (f := none) (g := none) ⟨n, h5, h6⟩
  have hl : w₀.comm.openLookup m.body.content = .ok (w.comm.next, none, s₁) := by
    rw [hb.comm, openLookup_ok h1 h2 h3 h4 h5]
    simp [Comms.construct, hs₁, h7]
  have hrun := run_commOpen (env := env) (I := I) hl
  simp only [K.run_throw, K.captured_exc, K.andThen_ok] at hrun
  have hd : s₁.destroy w.comm.next = .ub "uninitialised m_moved_from read by ~xcomm" := by
    simp [Comms.destroy, Comms.obj, hcr.objs]
  rw [run_openFinish_ub (by exact hd)] at hrun
  exact ⟨_, _, hub _ _ hrun⟩

theorem open_unmanaged (hr : IsReq m .commOpen) {name id : Str} {t : Nat} {n : Target}
    (h1 : m.body.content.find? (lit "target_name") = some (.str name))
    (h2 : m.body.content.find? (lit "comm_id") = some (.str id)) (h3 : id.length ≤ 55)
    (h4 : alGet name w.comm.names = some t) (h5 : alGet t w.comm.nodes = some n) (h6 : n.managed = false) :
    ∃ why w', (dispatch env I q c).run w = (.ub why, w') := by
  have hu : ¬ Usable (w.comm.newObj ⟨t, id, none, none, none⟩) t := by
    rintro ⟨n', h, hm⟩
    have : n' = n := by
      have h' : alGet t w.comm.nodes = some n' := h
      rw [h5] at h'; cases h'; rfl
    rw [this, h6] at hm; cases hm
  obtain ⟨why, hw⟩ := (unusable_ub hu id w.comm.next).1
  obtain ⟨w', h⟩ := open_ub hs I c ha w hr (s := why) (by
    rw [openLookup_ok h1 h2 h3 h4 h5]
    simp [Comms.construct, hw])
  exact ⟨why, w', h⟩

/-- Messages for the handlers of a comm. -/
theorem handler_course {r : Req} (hr : IsReq m r) {h : Option Nat} {After : Comms → Comms → Prop}
    {g : Comms → Comms} {acts : List CommAct} (hg : ∀ s, After s (g s))
    (hh : ∀ w₀ : World σ, w₀.comm = w.comm → (handle env I r m c).run w₀ =
      K.andThen ((runHandler env I h m).run w₀) fun _ w' => (.ok (), { w' with comm := g w'.comm, acts := w'.acts ++ acts })) :
    HandlerCourse env I q m c w h After := by
  obtain ⟨w₀, hb, hok, hstd, hfor, hub, hhang⟩ := dispatch_req hs I c ha hr w
  have hrun := hh w₀ hb.comm
  cases h with
  | none =>
    simp only [runHandler, K.run_pure, K.andThen_ok] at hrun
    refine ⟨g w.comm, hg _, ?_⟩
    obtain ⟨i, hi, hx⟩ := hok _ hrun
    obtain ⟨b, hb1, hb2⟩ := hb.out
    rw [hx]
    exact ⟨rfl, hb.parent, hb.st, hb.count, hb.input, hb.hist, by show g w₀.comm = _; rw [hb.comm],
      hb.shellQ, hb.stdinQ, ⟨b, i, hb1, hi, by simp [hb2]⟩⟩
  | some n =>
    simp only [runHandler] at hrun
    refine ⟨_, atCall_of_begun hb _, ?_, ?_, ?_, ?_, ?_⟩
    · intro w₂ hu
      rw [call_ok hu, K.andThen_ok] at hrun
      refine ⟨g w₂.comm, hg _, concludes_mk ?_ ?_ ?_ (hok _ hrun)⟩
      · exact ⟨rfl, rfl, rfl, rfl, rfl, rfl, rfl⟩
      · rfl
      · simp
    · intro e w₂ hu he
      rw [call_exc hu, K.andThen_exc] at hrun
      refine concludes_mk ?_ ?_ ?_ (hstd e _ he hrun)
      · exact ⟨rfl, rfl, rfl, rfl, rfl, rfl, rfl⟩
      · rfl
      · rfl
    · intro e w₂ hu he
      rw [call_exc hu, K.andThen_exc] at hrun
      exact hfor e _ he hrun
    · intro s w₂ hu
      rw [call_ub hu, K.andThen_ub] at hrun
      exact hub _ _ hrun
    · intro w₂ hu
      rw [call_hang hu, K.andThen_hang] at hrun
      exact hhang _ hrun

theorem msg_course (hr : IsReq m .commMsg) {id : Str} {a : Nat} {cm : Comm}
    (h1 : m.body.content.find? (lit "comm_id") = some (.str id)) (h2 : id.length ≤ 55)
    (h3 : alGet id w.comm.reg = some a) (h4 : alGet a w.comm.objs = some cm) :
    HandlerCourse env I q m c w cm.onMessage fun s s' => s' = s := by
  refine handler_course hs I c ha w hr (g := fun s => s) (acts := []) (fun _ => rfl) fun w₀ hw => ?_
  simp only [handle, commMsg, K.run_bind, K.run_readR, hw, msgLookup_ok h1 h2 h3 h4, K.andThen_ok]
  rcases (runHandler env I cm.onMessage m).run w₀ with ⟨y, w'⟩
  cases y <;> simp

theorem close_course (hr : IsReq m .commClose) {id : Str} {a : Nat} {cm : Comm}
    (h1 : m.body.content.find? (lit "comm_id") = some (.str id)) (h2 : id.length ≤ 55)
    (h3 : alGet id w.comm.reg = some a) (h4 : alGet a w.comm.objs = some cm) :
    HandlerCourse env I q m c w cm.onClose fun s s' => Erased s id s' := by
  refine handler_course hs I c ha w hr (g := fun s => { s with reg := alDel id s.reg }) (acts := [.closed id])
    (fun s => erased_del s id) fun w₀ hw => ?_
  simp only [handle, commClose, K.run_bind, K.run_readR, hw, msgLookup_ok h1 h2 h3 h4, K.andThen_ok, K.run_modify]

theorem traffic_refused {r : Req} (hr : IsReq m r) (hk : r = .commMsg ∨ r = .commClose) {e : Exc} (he : e.isStd = true)
    (h : w.comm.msgLookup m.body.content = .exc e) : Handled env m c w [] ((dispatch env I q c).run w) := by
  refine handled_bad hs I c ha hr w fun w₀ _ _ hc => ⟨e, he, ?_⟩
  rcases hk with rfl | rfl <;>
    simp only [handle, commMsg, commClose, K.run_bind, K.run_readR, hc, h, K.andThen_exc]

theorem traffic_ub {r : Req} (hr : IsReq m r) (hk : r = .commMsg ∨ r = .commClose) {s : String}
    (h : w.comm.msgLookup m.body.content = .ub s) : ∃ w', (dispatch env I q c).run w = (.ub s, w') := by
  obtain ⟨w₀, hb, _, _, _, hub, _⟩ := dispatch_req hs I c ha hr w
  refine ⟨w₀, hub s _ ?_⟩
  rcases hk with rfl | rfl <;>
    simp only [handle, commMsg, commClose, K.run_bind, K.run_readR, hb.comm, h, K.andThen_ub]

end

end Xeus
