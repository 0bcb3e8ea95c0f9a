import Verif.Kernel.Blocks

/-!
# Exact runs of the requests other than execute (no property statements here)
-/

namespace Xeus

open Spec K

variable {σ : Type}

theorem handled_mk {env : Env} {m : XMessage} {c : Chan} {w w₀ w' : World σ} {evs : List Ev} {x : Res Unit × World σ}
    (hb : Begun env m c w w₀) (hc : SameCore w₀ w') (hq : w'.shellQ = w₀.shellQ) (ho : w'.out = w₀.out ++ evs)
    (hx : ∃ i, IsStatus env c "idle" m.body.header i ∧ x = (.ok (), { tick w' with out := w'.out ++ [i] })) :
    Handled env m c w evs x := by
  obtain ⟨i, hi, rfl⟩ := hx
  obtain ⟨b, hb1, hb2⟩ := hb.out
  exact ⟨rfl, hc.1.trans hb.parent, hc.2.trans hb.st, hc.3.trans hb.count, hc.4.trans hb.input, hc.5.trans hb.hist,
    hc.6.trans hb.comm, hq.trans hb.shellQ, hc.7.trans hb.stdinQ, ⟨b, i, hb1, hi, by simp [ho, hb2]⟩⟩

/-- A request whose handler fails at once. -/
theorem handled_bad {env : Env} (hs : Sane env) (I : Interp σ) {q : Multipart} {m : XMessage} (c : Chan) {r : Req}
    (ha : Accepted env.C env.J env.auth q m) (hr : IsReq m r) (w : World σ)
    (hh : ∀ w₀, (∀ c', (w₀.parent c') = curParent m c w c') → w₀.hist = w.hist → w₀.comm = w.comm →
      ∃ e, e.isStd = true ∧ (handle env I r m c).run w₀ = (.exc e, w₀)) :
    Handled env m c w [] ((dispatch env I q c).run w) := by
  obtain ⟨w₀, hb, _, hstd, _⟩ := dispatch_req hs I c ha hr w
  obtain ⟨e, he, hrun⟩ := hh w₀ (fun c' => congrFun hb.parent c') hb.hist hb.comm
  exact handled_mk hb (.refl w₀) rfl (by simp) (hstd e w₀ he hrun)

section
variable {env : Env} (hs : Sane env) (I : Interp σ) {q : Multipart} {m : XMessage} (c : Chan)
  (ha : Accepted env.C env.J env.auth q m) (w : World σ)
include hs ha

theorem complete_course (hr : IsReq m .complete) {code : Str} {pos : Int}
    (hf : completeFields m.body.content = some (code, pos)) :
    Verbatim env I q m c w (Op.sem env) (.complete code pos) (I.complete code pos) "complete_reply" (· = .obj []) := by
  refine call_then_answer hs I c ha hr w (keeps_user hs.log _) (utf8_lit (by decide)) (pure_empty env) fun w₀ => ?_
  unfold completeFields at hf
  split at hf
  · rename_i ho
    simp only [Option.bind_eq_bind, Option.bind_eq_some_iff, Option.pure_def, Option.some.injEq, Prod.mk.injEq] at hf
    obtain ⟨_, h1, _, h2, rfl, rfl⟩ := hf
    simp only [handle, completeRequest, K.run_bind, K.run_ofRes, K.run_pure]
    rw [show ([] : Str) = lit "" from rfl, strField_value ho h1, K.andThen_ok, intField_value ho h2]
    simp only [K.andThen_ok]
  · simp at hf

theorem inspect_course (hr : IsReq m .inspect) {code : Str} {pos detail : Int}
    (hf : inspectFields m.body.content = some (code, pos, detail)) :
    Verbatim env I q m c w (Op.sem env) (.inspect code pos detail) (I.inspect code pos detail) "inspect_reply"
      (· = .obj []) := by
  refine call_then_answer hs I c ha hr w (keeps_user hs.log _) (utf8_lit (by decide)) (pure_empty env) fun w₀ => ?_
  unfold inspectFields at hf
  split at hf
  · rename_i ho
    simp only [Option.bind_eq_bind, Option.bind_eq_some_iff, Option.pure_def, Option.some.injEq, Prod.mk.injEq] at hf
    obtain ⟨_, h1, _, h2, _, h3, rfl, rfl, rfl⟩ := hf
    simp only [handle, inspectRequest, K.run_bind, K.run_ofRes, K.run_pure]
    rw [show ([] : Str) = lit "" from rfl, strField_value ho h1, K.andThen_ok, intField_value ho h2, K.andThen_ok,
      intField_value ho h3]
    simp only [K.andThen_ok]
  · simp at hf

theorem isComplete_course (hr : IsReq m .isComplete) {code : Str} (hf : codeField m.body.content = some code) :
    Verbatim env I q m c w (Op.sem env) (.isComplete code) (I.isComplete code) "is_complete_reply" (· = .obj []) := by
  refine call_then_answer hs I c ha hr w (keeps_user hs.log _) (utf8_lit (by decide)) (pure_empty env) fun w₀ => ?_
  unfold codeField at hf
  split at hf
  · rename_i ho
    simp only [handle, isCompleteRequest, K.run_bind, K.run_ofRes, K.run_pure]
    rw [show ([] : Str) = lit "" from rfl, strField_value ho hf]
    simp only [K.andThen_ok]
  · simp at hf

theorem debug_course (hr : IsReq m .debug) {d : Json → Json → Prog σ DOp Json} (hd : I.debug = some d) :
    Verbatim env I q m c w (DOp.sem env I) (.debug m.body.header m.body.content) (d m.body.header m.body.content)
      "debug_reply" Started := by
  refine call_then_answer hs I c ha hr w (keeps_debugger hs.log I _) (utf8_lit (by decide)) (getMetadata_started hs)
    fun w₀ => ?_
  simp only [handle, debugRequest, hd, K.run_bind]

theorem nodebug_handled (hr : IsReq m .debug) (hd : I.debug = none) :
    Handled env m c w [] ((dispatch env I q c).run w) := by
  obtain ⟨w₀, hb, hok, _⟩ := dispatch_req hs I c ha hr w
  refine handled_mk hb (.refl w₀) rfl (by simp) (hok w₀ ?_)
  simp only [handle, debugRequest, hd, K.run_pure]

theorem complete_bad (hr : IsReq m .complete) (hf : completeFields m.body.content = none)
    (hw : ¬ CompleteWild m.body.content) :
    Handled env m c w [] ((dispatch env I q c).run w) := by
  refine handled_bad hs I c ha hr w fun w₀ _ _ _ => ⟨.typeError, rfl, ?_⟩
  simp only [handle, completeRequest, K.run_bind, K.run_ofRes]
  unfold completeFields at hf
  cases ho : m.body.content.isObj with
  | false => rw [value_nonobj ho, K.andThen_exc]
  | true =>
    rw [if_pos ho] at hf
    cases h1 : strField m.body.content "code" "" with
    | none => rw [show ([] : Str) = lit "" from rfl, strField_none ho h1, K.andThen_exc]
    | some code =>
      rw [show ([] : Str) = lit "" from rfl, strField_value ho h1, K.andThen_ok]
      cases h2 : intField m.body.content "cursor_pos" (-1) with
      | none => rw [intField_none ho (fun h => hw ⟨ho, by simp [h1], h⟩) h2, K.andThen_exc]
      | some pos => simp [h1, h2] at hf

theorem inspect_bad (hr : IsReq m .inspect) (hf : inspectFields m.body.content = none)
    (hw : ¬ InspectWild m.body.content) :
    Handled env m c w [] ((dispatch env I q c).run w) := by
  refine handled_bad hs I c ha hr w fun w₀ _ _ _ => ⟨.typeError, rfl, ?_⟩
  simp only [handle, inspectRequest, K.run_bind, K.run_ofRes]
  unfold inspectFields at hf
  cases ho : m.body.content.isObj with
  | false => rw [value_nonobj ho, K.andThen_exc]
  | true =>
    rw [if_pos ho] at hf
    cases h1 : strField m.body.content "code" "" with
    | none => rw [show ([] : Str) = lit "" from rfl, strField_none ho h1, K.andThen_exc]
    | some code =>
      rw [show ([] : Str) = lit "" from rfl, strField_value ho h1, K.andThen_ok]
      cases h2 : intField m.body.content "cursor_pos" (-1) with
      | none => rw [intField_none ho (fun h => hw ⟨ho, by simp [h1], .inl h⟩) h2, K.andThen_exc]
      | some pos =>
        rw [intField_value ho h2, K.andThen_ok]
        cases h3 : intField m.body.content "detail_level" 0 with
        | none => rw [intField_none ho (fun h => hw ⟨ho, by simp [h1], .inr ⟨by simp [h2], h⟩⟩) h3, K.andThen_exc]
        | some d => simp [h1, h2, h3] at hf

theorem isComplete_bad (hr : IsReq m .isComplete) (hf : codeField m.body.content = none) :
    Handled env m c w [] ((dispatch env I q c).run w) := by
  refine handled_bad hs I c ha hr w fun w₀ _ _ _ => ⟨.typeError, rfl, ?_⟩
  simp only [handle, isCompleteRequest, K.run_bind, K.run_ofRes]
  unfold codeField at hf
  cases ho : m.body.content.isObj with
  | false => rw [value_nonobj ho, K.andThen_exc]
  | true =>
    rw [if_pos ho] at hf
    rw [show ([] : Str) = lit "" from rfl, strField_none ho hf, K.andThen_exc]

theorem shutdown_bad (hr : IsReq m .shutdown) (hf : restartField m.body.content = none) :
    Handled env m c w [] ((dispatch env I q c).run w) := by
  refine handled_bad hs I c ha hr w fun w₀ _ _ _ => ⟨.typeError, rfl, ?_⟩
  simp only [handle, shutdownRequest, K.run_bind, K.run_ofRes]
  unfold restartField at hf
  cases ho : m.body.content.isObj with
  | false => rw [value_nonobj ho, K.andThen_exc]
  | true =>
    rw [if_pos ho] at hf
    rw [boolField_none ho hf, K.andThen_exc]

theorem execute_bad (hr : IsReq m .execute) (hf : execFields m.body.content = none)
    (hw : ¬ ExecWild m.body.content) :
    Handled env m c w [] ((dispatch env I q c).run w) := by
  obtain ⟨w₀, hb, hok, _⟩ := dispatch_req hs I c ha hr w
  refine handled_mk hb (.refl w₀) rfl (by simp) (hok w₀ ?_)
  show (K.catchStd (executeBody env I m c) fun _ => pure ()).run w₀ = _
  rw [run_catchStd_std rfl (executeBody_bad env I m c hf hw w₀), K.run_pure]

theorem execute_wild (hr : IsReq m .execute) (hw : ExecWild m.body.content) :
    ∃ w₀, Begun env m c w w₀ ∧ (dispatch env I q c).run w = (.ub "conversion of a double that does not fit", w₀) := by
  obtain ⟨w₀, hb, _, _, _, hub, _⟩ := dispatch_req hs I c ha hr w
  refine ⟨w₀, hb, hub _ _ ?_⟩
  show (K.catchStd (executeBody env I m c) fun _ => pure ()).run w₀ = _
  exact run_catchStd_ub (executeBody_wild env I m c hw w₀)

theorem complete_wild (hr : IsReq m .complete) (hw : CompleteWild m.body.content) :
    ∃ w₀, Begun env m c w w₀ ∧ (dispatch env I q c).run w = (.ub "conversion of a double that does not fit", w₀) := by
  obtain ⟨w₀, hb, _, _, _, hub, _⟩ := dispatch_req hs I c ha hr w
  refine ⟨w₀, hb, hub _ _ ?_⟩
  obtain ⟨ho, h1, h2⟩ := hw
  obtain ⟨_, h1⟩ := Option.isSome_iff_exists.1 h1
  simp only [handle, completeRequest, K.run_bind, K.run_ofRes]
  rw [show ([] : Str) = lit "" from rfl, strField_value ho h1, K.andThen_ok, (intField_wild ho h2).1, K.andThen_ub]

theorem inspect_wild (hr : IsReq m .inspect) (hw : InspectWild m.body.content) :
    ∃ w₀, Begun env m c w w₀ ∧ (dispatch env I q c).run w = (.ub "conversion of a double that does not fit", w₀) := by
  obtain ⟨w₀, hb, _, _, _, hub, _⟩ := dispatch_req hs I c ha hr w
  refine ⟨w₀, hb, hub _ _ ?_⟩
  obtain ⟨ho, h1, h2⟩ := hw
  obtain ⟨_, h1⟩ := Option.isSome_iff_exists.1 h1
  simp only [handle, inspectRequest, K.run_bind, K.run_ofRes]
  rw [show ([] : Str) = lit "" from rfl, strField_value ho h1, K.andThen_ok]
  rcases h2 with h2 | ⟨h2, h3⟩
  · rw [(intField_wild ho h2).1, K.andThen_ub]
  · obtain ⟨_, h2⟩ := Option.isSome_iff_exists.1 h2
    rw [intField_value ho h2, K.andThen_ok, (intField_wild ho h3).1, K.andThen_ub]

theorem unknown_handled {t : Str} (ht : typeOf m.body.header = some t) (hn : ∀ r, ¬ IsReq m r) :
    Handled env m c w [] ((dispatch env I q c).run w) := by
  obtain ⟨w₀, x, hb, hx, hcases, _, _, hfin⟩ := dispatch_parts hs I c ha ht w
  rcases hcases with ⟨_, rfl⟩ | ⟨r, hr, _⟩
  · rcases hfin with ⟨_, h⟩ | ⟨h, _⟩
    · exact handled_mk hb (.refl w₀) rfl (by simp) h
    · exact absurd rfl h
  · exact absurd hr (hn r)

/-- A message whose type is not a text. -/
theorem untyped (ht : typeOf m.body.header = none) :
    ∃ w₀, Begun env m c w w₀ ∧ (dispatch env I q c).run w = (.exc .typeError, w₀) := by
  obtain ⟨w₀, hb, hrun⟩ := dispatch_begin hs I c ha w
  refine ⟨w₀, hb, ?_⟩
  rw [hrun]
  rcases value_str_cases m.body.header (lit "msg_type") [] with ⟨t, h⟩ | h
  · rw [typeOf_value h] at ht; simp at ht
  · rw [h, K.andThen_exc]

theorem kernelInfo_course (hr : IsReq m .kernelInfo) : KernelInfoCourse env I q m c w := by
  obtain ⟨w₀, hb, hok, hstd, hfor, hub, hhang⟩ := dispatch_req hs I c ha hr w
  have hk := keeps_user hs.log I.kernelInfo { w₀ with out := w₀.out ++ [.call .kernelInfo] }
  have hrun : (handle env I .kernelInfo m c).run w₀ =
      K.andThen ((userCall (Op.sem env) .kernelInfo I.kernelInfo).run w₀) fun j w' =>
      K.andThen (j.set (lit "protocol_version") (.str protocolVersion), w') fun j w' =>
        (sendReply env (lit "kernel_info_reply") (.obj []) j c).run w' := by
    simp only [handle, kernelInfoRequest, K.run_bind, K.run_ofRes]
  refine ⟨_, atCall_of_begun hb _, ?_, ?_, ?_, ?_, ?_, ?_⟩
  · intro j w₂ hx ho
    rw [hx] at hk
    rw [call_ok hx, K.andThen_ok, set_eq_put ho, K.andThen_ok] at hrun
    rw [show protocolVersion = lit "5.3" from rfl] at hrun
    refine ⟨_, withMember_put ho "protocol_version" _, fun hj => printable_put hj (utf8_lit (by decide))
      (str_printable fun _ => utf8_lit (by decide)), ?_⟩
    rcases sendReply_either hs (w := w₂) (c := c) (ids := m.ids)
      (h := m.body.header) (t := lit "kernel_info_reply") (md := .obj [])
      (j := j.put (lit "protocol_version") (.str (lit "5.3")))
      (by show w₂.parent c = _; rw [hk.parent]; exact hb.cur) (accepted_parsed hs ha).1 (utf8_lit (by decide))
      (emptyObj_printable _) with ⟨hj, rep, hrep, hsend⟩ | ⟨hj, hsend⟩
    · rw [hsend] at hrun
      refine .inl ⟨hj, rep, hrep, concludes_mk ?_ ?_ ?_ (hok _ hrun)⟩
      · exact ⟨rfl, rfl, rfl, rfl, rfl, rfl, rfl⟩
      · rfl
      · rfl
    · rw [hsend] at hrun
      refine .inr ⟨hj, concludes_mk ?_ ?_ ?_ (hstd _ _ rfl hrun)⟩
      · exact ⟨rfl, rfl, rfl, rfl, rfl, rfl, rfl⟩
      · rfl
      · simp [tick]
  · intro j w₂ hx ho
    rw [call_ok hx, K.andThen_ok, set_fails ho, K.andThen_exc] at hrun
    refine concludes_mk ?_ ?_ ?_ (hstd _ _ rfl hrun)
    · exact ⟨rfl, rfl, rfl, rfl, rfl, rfl, rfl⟩
    · rfl
    · simp
  · intro e w₂ hx he
    rw [call_exc hx, K.andThen_exc] at hrun
    refine concludes_mk ?_ ?_ ?_ (hstd _ _ he hrun)
    · exact ⟨rfl, rfl, rfl, rfl, rfl, rfl, rfl⟩
    · rfl
    · rfl
  · intro e w₂ hx he
    rw [call_exc hx, K.andThen_exc] at hrun
    exact hfor _ _ he hrun
  · intro s w₂ hx
    rw [call_ub hx, K.andThen_ub] at hrun
    exact hub _ _ hrun
  · intro w₂ hx
    rw [call_hang hx, K.andThen_hang] at hrun
    exact hhang _ hrun

theorem shutdown_course (hr : IsReq m .shutdown) {restart : Bool} (hf : restartField m.body.content = some restart)
    (hp : ParentsOk w) : ShutdownCourse env I q m c w restart := by
  obtain ⟨w₀, hb, hok, hstd, hfor, hub, hhang⟩ := dispatch_req hs I c ha hr w
  have hk := keeps_user hs.log I.shutdown { w₀ with out := w₀.out ++ [.call .shutdown] }
  have hcp : ∀ c', Parsed (curParent m c w c').header := by
    intro c'
    unfold curParent
    split
    · exact (accepted_parsed hs ha).1
    · exact hp c'
  have hrun : (handle env I .shutdown m c).run w₀ =
      K.andThen ((userCall (Op.sem env) .shutdown I.shutdown).run w₀) fun _ w' =>
      K.andThen ((publishMessage env (lit "shutdown") (.obj []) (.obj [(lit "restart", .bool restart)]) [] .control).run
        { w' with out := w'.out ++ [.stop] }) fun _ w' =>
        (sendReply env (lit "shutdown_reply") (.obj []) (.obj [(lit "restart", .bool restart)]) c).run w' := by
    unfold restartField at hf
    split at hf
    · rename_i ho
      simp only [handle, shutdownRequest, K.run_bind, K.run_ofRes]
      rw [boolField_value ho hf]
      simp only [K.andThen_ok, run_emit, Json.put]
    · simp at hf
  refine ⟨_, atCall_of_begun hb _, ?_, ?_, ?_, ?_, ?_⟩
  · intro w₂ hx
    rw [hx] at hk
    rw [call_ok hx, K.andThen_ok] at hrun
    have hpar : w₂.parent = curParent m c w := by rw [hk.parent]; exact hb.parent
    have hct : Printable env.eh (.obj [(lit "restart", .bool restart)]) :=
      obj1_printable (utf8_lit (by decide)) ⟨by simp [Json.canon], fun _ => .bool⟩
    obtain ⟨wire, _, hpub⟩ := publishMessage_ok hs (type := lit "shutdown") (metadata := .obj [])
      (content := .obj [(lit "restart", .bool restart)]) [] (c := .control) (w := { w₂ with out := w₂.out ++ [.stop] })
      (by rw [hpar]; exact hcp .control) (utf8_lit (by decide)) (emptyObj_printable _) hct
    rw [hpub, K.andThen_ok] at hrun
    obtain ⟨rep, hrep, hsend⟩ := sendReply_with hs
      (w := { tick { w₂ with out := w₂.out ++ [.stop] } with
        out := w₂.out ++ [.stop] ++ [.pub .control (pubAt env { w₂ with out := w₂.out ++ [.stop] } (lit "shutdown")
          (.obj []) (.obj [(lit "restart", .bool restart)]) [] .control) wire] })
      (c := c) (ids := m.ids) (h := m.body.header) (t := lit "shutdown_reply") (md := .obj [])
      (by show w₂.parent c = _; rw [hpar]; simp [curParent]) (accepted_parsed hs ha).1 (utf8_lit (by decide))
      (emptyObj_printable _) hct
    rw [hsend] at hrun
    refine ⟨.pub .control (pubAt env { w₂ with out := w₂.out ++ [.stop] } (lit "shutdown")
      (.obj []) (.obj [(lit "restart", .bool restart)]) [] .control) wire, rep,
      ⟨_, wire, rfl, rfl, hdrAt_wf env _ _, ?_, rfl, rfl, rfl⟩, hrep, concludes_mk ?_ ?_ ?_ (hok _ hrun)⟩
    · show (w₂.parent .control).header = _; rw [hpar]
    · exact ⟨rfl, rfl, rfl, rfl, rfl, rfl, rfl⟩
    · rfl
    · simp
  · intro e w₂ hx he
    rw [call_exc hx, K.andThen_exc] at hrun
    refine concludes_mk ?_ ?_ ?_ (hstd _ _ he hrun)
    · exact ⟨rfl, rfl, rfl, rfl, rfl, rfl, rfl⟩
    · rfl
    · rfl
  · intro e w₂ hx he
    rw [call_exc hx, K.andThen_exc] at hrun
    exact hfor _ _ he hrun
  · intro s w₂ hx
    rw [call_ub hx, K.andThen_ub] at hrun
    exact hub _ _ hrun
  · intro w₂ hx
    rw [call_hang hx, K.andThen_hang] at hrun
    exact hhang _ hrun

theorem interrupt_handled (hr : IsReq m .interrupt) (hp : ParentsOk w) :
    ∃ n rep, IsPub env .control (lit "interrupt") (curParent m c w .control).header (.obj []) (.obj []) [] n ∧
      IsReplyWith env c m.ids m.body.header (lit "interrupt_reply") (.obj []) (.obj []) rep ∧
      Handled env m c w [n, rep] ((dispatch env I q c).run w) := by
  obtain ⟨w₀, hb, hok, hstd, hfor, _, _⟩ := dispatch_req hs I c ha hr w
  have hcp : ∀ c', Parsed (curParent m c w c').header := by
    intro c'
    unfold curParent
    split
    · exact (accepted_parsed hs ha).1
    · exact hp c'
  have hpar : w₀.parent = curParent m c w := hb.parent
  obtain ⟨wire, _, hpub⟩ := publishMessage_ok hs (type := lit "interrupt") (metadata := .obj [])
    (content := .obj []) [] (c := .control) (w := w₀)
    (by rw [hpar]; exact hcp .control) (utf8_lit (by decide)) (emptyObj_printable _) (emptyObj_printable _)
  obtain ⟨rep, hrep, hsend⟩ := sendReply_with hs
    (w := { tick w₀ with
      out := w₀.out ++ [.pub .control (pubAt env w₀ (lit "interrupt") (.obj []) (.obj []) [] .control) wire] })
    (c := c) (ids := m.ids) (h := m.body.header) (t := lit "interrupt_reply") (md := .obj []) (j := .obj [])
    (by show w₀.parent c = _; rw [hpar]; simp [curParent]) (accepted_parsed hs ha).1 (utf8_lit (by decide))
    (emptyObj_printable _) (emptyObj_printable _)
  have hrun : (handle env I .interrupt m c).run w₀ =
      (sendReply env (lit "interrupt_reply") (.obj []) (.obj []) c).run { tick w₀ with
        out := w₀.out ++ [.pub .control (pubAt env w₀ (lit "interrupt") (.obj []) (.obj []) [] .control) wire] } := by
    simp only [handle, interruptRequest, K.run_bind]
    rw [hpub, K.andThen_ok]
  rw [hsend] at hrun
  refine ⟨.pub .control (pubAt env w₀ (lit "interrupt") (.obj []) (.obj []) [] .control) wire, rep,
    ⟨_, wire, rfl, rfl, hdrAt_wf env _ _, ?_, rfl, rfl, rfl⟩, hrep, handled_mk hb ?_ ?_ ?_ (hok _ hrun)⟩
  · show (w₀.parent .control).header = _; rw [hpar]
  · exact ⟨rfl, rfl, rfl, rfl, rfl, rfl, rfl⟩
  · rfl
  · simp

theorem history_handled (hr : IsReq m .history) :
    (∀ j, historyRequest env.H w.hist m.body.content = .ok j → Printable env.eh j →
      ∃ rep, IsReplyWith env c m.ids m.body.header (lit "history_reply") (.obj []) j rep ∧
        Handled env m c w [rep] ((dispatch env I q c).run w)) ∧
    (∀ j, historyRequest env.H w.hist m.body.content = .ok j → env.eh = .strict → ¬ JsonUtf8 j →
      Handled env m c w [] ((dispatch env I q c).run w)) ∧
    (∀ e, historyRequest env.H w.hist m.body.content = .exc e →
      Handled env m c w [] ((dispatch env I q c).run w)) := by
  obtain ⟨w₀, hb, hok, hstd, hfor, _, _⟩ := dispatch_req hs I c ha hr w
  have hrun : (handle env I .history m c).run w₀ =
      K.andThen (historyRequest env.H w.hist m.body.content, w₀) fun h w' =>
        (sendReply env (lit "history_reply") (.obj []) h c).run w' := by
    simp only [handle, historyReq, K.run_bind, K.run_readR, hb.hist]
  refine ⟨?_, ?_, ?_⟩
  · intro j hj hp
    obtain ⟨rep, hrep, hsend⟩ := sendReply_with hs (w := w₀)
      (c := c) (ids := m.ids) (h := m.body.header) (t := lit "history_reply") (md := .obj []) (j := j)
      hb.cur (accepted_parsed hs ha).1 (utf8_lit (by decide)) (emptyObj_printable _) hp
    rw [hj, K.andThen_ok, hsend] at hrun
    have hfin := hok _ hrun
    exact ⟨rep, hrep, handled_mk hb (by exact ⟨rfl, rfl, rfl, rfl, rfl, rfl, rfl⟩) (by rfl) (by rfl) hfin⟩
  · intro j hj he hu
    rw [hj, K.andThen_ok, sendReply_fail hs he hu] at hrun
    have hfin := hstd _ _ rfl hrun
    exact handled_mk hb (by exact ⟨rfl, rfl, rfl, rfl, rfl, rfl, rfl⟩) (by rfl) (by simp [tick]) hfin
  · intro e he
    rw [he, K.andThen_exc] at hrun
    refine handled_mk hb (.refl w₀) rfl (by simp) (hstd e w₀ ?_ hrun)
    cases hstd' : e.isStd with
    | true => rfl
    | false =>
      obtain ⟨n, rfl⟩ := isStd_false hstd'
      exact absurd he (nf_historyRequest hs.manager _ _ _)

end

/-! ## Listing comms -/

theorem alGet_mem {κ ν : Type} [DecidableEq κ] {k : κ} {v : ν} : ∀ {l : List (κ × ν)}, alGet k l = some v → (k, v) ∈ l
  | [], h => by simp [alGet] at h
  | (k', v') :: r, h => by
    unfold alGet at h
    split at h
    · rename_i hk
      subst hk
      simp at h
      exact h ▸ List.mem_cons_self
    · exact List.mem_cons_of_mem _ (alGet_mem h)

theorem alGet_none {κ ν : Type} [DecidableEq κ] {k : κ} : ∀ {l : List (κ × ν)}, alGet k l = none ↔ k ∉ l.map (·.1)
  | [] => by simp [alGet]
  | (k', v') :: r => by
    unfold alGet
    split
    · rename_i hk; simp [hk]
    · rename_i hk
      rw [alGet_none]
      simp [Ne.symm hk]

/-- The listing of a sublist of a live registry. -/
theorem listing_ok {s : Comms} : ∀ {l : List (Str × Nat)},
    (∀ id a, (id, a) ∈ l → ∃ c n, alGet a s.objs = some c ∧ alGet c.target s.nodes = some n) →
    ∃ names, s.listing l = .ok names ∧ names.map (·.1) = l.map (·.1) ∧
      ∀ id, alGet id names = (do
        let a ← alGet id l
        let c ← alGet a s.objs
        let n ← alGet c.target s.nodes
        return n.name)
  | [], _ => ⟨[], rfl, rfl, by simp [alGet]⟩
  | (id, a) :: r, h => by
    obtain ⟨names, hn, hk, hg⟩ := listing_ok (l := r) fun id' a' h' => h id' a' (List.mem_cons_of_mem _ h')
    obtain ⟨c, n, hc, hnn⟩ := h id a List.mem_cons_self
    refine ⟨(id, n.name) :: names, ?_, ?_, ?_⟩
    · simp only [Comms.listing, Comms.obj, hc, Comms.node, hnn, hn, Res.bind_ok, Res.pure_def]
    · simp [hk]
    · intro id'
      simp only [alGet]
      split
      · simp [hc, hnn]
      · exact hg id'

theorem commsJson_spec (wanted : Str) : ∀ (l : List (Str × Str)) (acc : Json), acc.isObj = true →
    (l.map (·.1)).Nodup → (commsJson wanted l acc).isObj = true ∧
    ∀ id, (commsJson wanted l acc).find? id = match alGet id l with
      | none => acc.find? id
      | some n => if wanted = [] ∨ n = wanted then some (.obj [(lit "target_name", .str n)]) else acc.find? id
  | [], acc, ho, _ => ⟨ho, fun id => by simp [commsJson, alGet]⟩
  | (id, name) :: r, acc, ho, hd => by
    simp only [List.map_cons, List.nodup_cons] at hd
    unfold commsJson
    have hput : Json.put .null (lit "target_name") (.str name) = .obj [(lit "target_name", .str name)] := rfl
    have hacc : (if wanted = [] ∨ name = wanted then
        acc.put id (Json.put .null (lit "target_name") (.str name)) else acc).isObj = true := by
      split
      · exact Json.put_isObj ..
      · exact ho
    obtain ⟨h1, h2⟩ := commsJson_spec wanted r _ hacc hd.2
    refine ⟨h1, fun id' => ?_⟩
    rw [h2 id']
    simp only [alGet]
    by_cases he : id = id'
    · subst he
      rw [if_pos rfl]
      have : alGet id r = none := alGet_none.2 hd.1
      simp only [this]
      by_cases hw : wanted = [] ∨ name = wanted
      · simp only [if_pos hw, Json.find?_put, if_true, hput]
      · simp only [if_neg hw]
    · rw [if_neg he]
      have hsame : (if wanted = [] ∨ name = wanted then
          acc.put id (Json.put .null (lit "target_name") (.str name)) else acc).find? id' = acc.find? id' := by
        split
        · rw [Json.find?_put, if_neg he]
        · rfl
      rw [hsame]

theorem commsJson_printable {eh : ErrH} (wanted : Str) : ∀ (l : List (Str × Str)) (acc : Json), Printable eh acc →
    (eh = .strict → ∀ x ∈ l, Utf8 x.1 ∧ Utf8 x.2) → Printable eh (commsJson wanted l acc)
  | [], acc, ha, _ => ha
  | (id, name) :: r, acc, ha, h => by
    unfold commsJson
    refine commsJson_printable wanted r _ ?_ fun he x hx => h he x (List.mem_cons_of_mem _ hx)
    split
    · refine ⟨Json.canon_put id ha.1 (by simp [Json.put, Json.canon, Json.sortedKeys, Json.canonO]), fun he => ?_⟩
      have := h he _ List.mem_cons_self
      exact jsonUtf8_put (ha.2 he) this.1 (.obj (by simp [utf8_lit (s := "target_name") (by decide)])
        (by simp [JsonUtf8.str this.2]))
    · exact ha

theorem commInfo_handled {env : Env} (hs : Sane env) (I : Interp σ) {q : Multipart} {m : XMessage} (c : Chan)
    (ha : Accepted env.C env.J env.auth q m) {w : World σ} (hr : IsReq m .commInfo) {wanted : Str}
    (hf : targetField m.body.content = some wanted) (hl : RegistryLive w.comm)
    (hu : env.eh = .strict → ∀ id n, registeredTarget w.comm id = some n → Utf8 id ∧ Utf8 n) :
    ∃ j rep, ListsComms w.comm wanted j ∧
      IsReplyWith env c m.ids m.body.header (lit "comm_info_reply") (.obj [])
        (.obj [(lit "comms", j), (lit "status", .str (lit "ok"))]) rep ∧
      Handled env m c w [rep] ((dispatch env I q c).run w) := by
  obtain ⟨w₀, hb, hok, hstd, hfor, _, _⟩ := dispatch_req hs I c ha hr w
  obtain ⟨names, hn, hk, hg⟩ := listing_ok hl.2
  have hnd : (names.map (·.1)).Nodup := by rw [hk]; exact hl.1
  obtain ⟨hobj, hfind⟩ := commsJson_spec wanted names (.obj []) rfl hnd
  have hempty : ∀ id, Json.find? (.obj []) id = none := by intro id; rfl
  have hprint : Printable env.eh (commsJson wanted names (.obj [])) := by
    refine commsJson_printable wanted names _ (emptyObj_printable _) fun he x hx => ?_
    have hx' : alGet x.1 names = some x.2 := by
      clear hn hk hg hobj hfind
      induction names with
      | nil => simp at hx
      | cons y r ih =>
        simp only [List.map_cons, List.nodup_cons] at hnd
        unfold alGet
        rcases List.mem_cons.mp hx with rfl | hx
        · simp
        · have : y.1 ≠ x.1 := fun h => hnd.1 (h ▸ List.mem_map_of_mem hx)
          rw [if_neg this]
          exact ih hnd.2 hx
    refine hu he x.1 x.2 ?_
    rw [← hx', hg]; rfl
  have hreply : (Json.put .null (lit "comms") (commsJson wanted names (.obj []))).put (lit "status") (.str (lit "ok")) =
      .obj [(lit "comms", commsJson wanted names (.obj [])), (lit "status", .str (lit "ok"))] := by
    simp only [Json.put, Json.insertKV]
    simp (decide := true) only [if_false]
  have hrp : Printable env.eh (.obj [(lit "comms", commsJson wanted names (.obj [])), (lit "status", .str (lit "ok"))]) := by
    rw [← hreply]
    exact printable_put (printable_put ⟨by decide, fun _ => .null⟩ (utf8_lit (by decide)) hprint) (utf8_lit (by decide))
      (str_printable fun _ => utf8_lit (by decide))
  obtain ⟨rep, hrep, hsend⟩ := sendReply_with hs (w := w₀)
    (c := c) (ids := m.ids) (h := m.body.header) (t := lit "comm_info_reply") (md := .obj [])
    hb.cur (accepted_parsed hs ha).1 (utf8_lit (by decide)) (emptyObj_printable _) hrp
  have hrun : (handle env I .commInfo m c).run w₀ = (sendReply env (lit "comm_info_reply") (.obj [])
      (.obj [(lit "comms", commsJson wanted names (.obj [])), (lit "status", .str (lit "ok"))]) c).run w₀ := by
    have hw : (if m.body.content.isNull then Res.ok ([] : Str)
        else m.body.content.value (lit "target_name") Json.getStr []) = .ok wanted := by
      unfold targetField at hf
      by_cases hnull : m.body.content = .null
      · rw [if_pos hnull] at hf
        rw [hnull]; simp at hf; simp [Json.isNull, hf]
      · rw [if_neg hnull] at hf
        have : m.body.content.isNull = false := by
          cases hcc : m.body.content <;> simp [Json.isNull, hcc] at hnull ⊢
        rw [this]
        split at hf
        · rename_i ho
          exact strField_value (d := "") ho hf
        · simp at hf
    simp only [handle, commInfoRequest, K.run_bind, K.run_ofRes, K.run_readR]
    rw [hw]
    simp only [K.andThen_ok, hb.comm, hn, hreply]
  rw [hsend] at hrun
  have hfin := hok _ hrun
  refine ⟨_, rep, ⟨hobj, fun id => ?_⟩, hrep,
    handled_mk hb (by exact ⟨rfl, rfl, rfl, rfl, rfl, rfl, rfl⟩) (by rfl) (by rfl) hfin⟩
  rw [hfind id, hg id]; rfl

theorem commInfo_bad {env : Env} (hs : Sane env) (I : Interp σ) {q : Multipart} {m : XMessage} (c : Chan)
    (ha : Accepted env.C env.J env.auth q m) (w : World σ) (hr : IsReq m .commInfo)
    (hf : targetField m.body.content = none) : Handled env m c w [] ((dispatch env I q c).run w) := by
  refine handled_bad hs I c ha hr w fun w₀ _ _ _ => ⟨.typeError, rfl, ?_⟩
  have hw : (if m.body.content.isNull then Res.ok ([] : Str)
      else m.body.content.value (lit "target_name") Json.getStr []) = .exc .typeError := by
    unfold targetField at hf
    by_cases hnull : m.body.content = .null
    · rw [if_pos hnull] at hf; simp at hf
    · rw [if_neg hnull] at hf
      have : m.body.content.isNull = false := by
        cases hcc : m.body.content <;> simp [Json.isNull, hcc] at hnull ⊢
      rw [this]
      split at hf
      · rename_i ho
        exact strField_none (d := "") ho hf
      · rename_i ho
        simpa using value_nonobj (k := lit "target_name") (conv := Json.getStr) (d := []) (by simpa using ho)
  simp only [handle, commInfoRequest, K.run_bind, K.run_ofRes]
  rw [hw, K.andThen_exc]

end Xeus
