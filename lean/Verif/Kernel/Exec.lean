import Verif.Kernel.Runs

/-!
# The course of execute requests (no property statements here)
-/

namespace Xeus

open Spec K

variable {σ : Type}

theorem strField_put {j : Json} {k k' : String} {v : Json} (h : lit k ≠ lit k') (d : String) :
    strField (j.put (lit k') v) k d = strField j k d := by
  unfold strField
  rw [Json.find?_put, if_neg (fun h' => h h'.symm)]

theorem storedHist_eq (h : Hist) (f : ExecFields) :
    storedHist h f.silent (f.store && !f.silent) f.line f.code = h ++ execEntries f := by
  unfold storedHist execEntries storeInputs
  have h0 : intToString 0 = lit "0" := by decide
  cases f.silent <;> cases f.store <;> simp [h0]

/-- The run of the body for an answer that can be replied. -/
theorem exec_end {env : Env} (hs : Sane env) (I : Interp σ) {q : Multipart} {m : XMessage} (c : Chan)
    {f : ExecFields} {w w₀ w₂ w₃ : World σ} {s : Str} {rep : Ev}
    (hok : ∀ w', (handle env I .execute m c).run w₀ = (.ok (), w') → ∃ i, IsStatus env c "idle" m.body.header i ∧
        (dispatch env I q c).run w = (.ok (), { tick w' with out := w'.out ++ [i] }))
    (hub : ∀ s w', (handle env I .execute m c).run w₀ = (.ub s, w') → (dispatch env I q c).run w = (.ub s, w'))
    (h₃ : w₃ = { tick w₂ with out := w₂.out ++ [rep] })
    (hrun : (executeBody env I m c).run w₀ =
      (tailK env f.silent (f.store && !f.silent) f.line f.code s f.stop).run w₃) :
    ExecEnd env m c w₂ f s rep ((dispatch env I q c).run w) := by
  rw [run_tailK, storedHist_eq] at hrun
  have hcond : (f.silent = false ∧ s = lit "error" ∧ f.stop = true) ↔ Aborts f s := by
    unfold Aborts
    constructor
    · rintro ⟨a, b, c⟩; exact ⟨a, c, b⟩
    · rintro ⟨a, b, c⟩; exact ⟨a, c, b⟩
  have hhandle : ∀ w', (executeBody env I m c).run w₀ = (.ok (), w') →
      (handle env I .execute m c).run w₀ = (.ok (), w') := fun w' h => run_catchStd_ok h
  constructor
  · intro hna
    have : (abortK env f.silent s f.stop).run { w₃ with hist := w₃.hist ++ execEntries f } =
        (.ok (), { w₃ with hist := w₃.hist ++ execEntries f }) := by
      unfold abortK
      rw [if_neg (fun h => hna (hcond.1 h)), K.run_pure]
    rw [this] at hrun
    subst h₃
    refine concludes_mk ?_ ?_ ?_ (hok _ (hhandle _ hrun))
    · exact ⟨rfl, rfl, rfl, rfl, rfl, rfl, rfl⟩
    · rfl
    · rfl
  · intro hab
    have : (abortK env f.silent s f.stop) = abortQueue (σ := σ) env := by
      unfold abortK
      rw [if_pos (hcond.2 hab)]
    rw [this] at hrun
    have hq := abortQueue_q hs { w₃ with hist := w₃.hist ++ execEntries f }
    generalize (abortQueue env).run { w₃ with hist := w₃.hist ++ execEntries f } = x at hq hrun
    obtain ⟨y, w'⟩ := x
    obtain ⟨done, stuck, ab, e1, e2, e3, e4, e5, e6, e7⟩ := hq.out
    have hcore := hq.core
    subst h₃
    simp only at e1 e2 e6 e7
    refine ⟨done, stuck, w'.shellQ, ab, e1, e5, e3, e4, fun q' hq' => (e7 q' hq').1, fun h => (e6 h).1, ?_, ?_⟩
    · intro hnu
      refine concludes_mk (w' := w') ?_ rfl ?_ (hok _ ?_)
      · exact ⟨hcore.1, hcore.2, hcore.3, hcore.4, hcore.5, hcore.6, hcore.7⟩
      · rw [e2]; simp
      · cases stuck with
        | nil =>
          obtain ⟨_, rfl⟩ := e6 rfl
          exact hhandle _ hrun
        | cons q' r =>
          obtain ⟨e, rfl, he⟩ := (e7 q' List.mem_cons_self).2.2 (hnu q' List.mem_cons_self)
          show (K.catchStd (executeBody env I m c) fun _ => pure ()).run w₀ = _
          rw [run_catchStd_std he hrun, K.run_pure]
    · rintro ⟨q', hq', hu⟩
      obtain ⟨why, rfl⟩ := (e7 q' hq').2.1 hu
      have := hub why w' (by
        show (K.catchStd (executeBody env I m c) fun _ => pure ()).run w₀ = _
        rw [run_catchStd_ub hrun])
      exact ⟨why, w', this, by rw [e2]; simp, hcore.3, hcore.5, hcore.1⟩

theorem exec_course {env : Env} (hs : Sane env) (I : Interp σ) {q : Multipart} {m : XMessage} (c : Chan)
    {f : ExecFields} (ha : Accepted env.C env.J env.auth q m) (hr : IsReq m .execute)
    (hf : execFields m.body.content = some f) {w : World σ} (hp : ParentsOk w)
    (hc : f.silent = false → InInt (w.count + 1)) (hc' : InInt w.count) : ExecCourse env I q m c w f := by
  obtain ⟨w₀, hb, hok, hstd, hfor, hub, hhang⟩ := dispatch_req hs I c ha hr w
  have hparsed := accepted_parsed hs ha
  obtain ⟨w₁, pre, hat, hann, hrun⟩ := exec_at_call hs I c hparsed.1 hparsed.2.2.2 hf hp hc hb
  have hu := keeps_user hs.log (execProg I w f) { w₁ with out := w₁.out ++ [.call (execCall w f)] }
  refine ⟨_, pre, hat, hann, ?_, ?_, ?_, ?_, ?_, ?_⟩
  · intro e w₂ hx he
    have hbody : (executeBody env I m c).run w₀ = (.exc e, { w₂ with out := w₂.out ++ [.threw e] }) := by
      rw [executeBody_good env I m c hf, hrun, call_exc hx]
      simp only [K.andThen_exc]
    refine concludes_mk ?_ ?_ ?_ (hok _ (by
      show (K.catchStd (executeBody env I m c) fun _ => pure ()).run w₀ = _
      rw [run_catchStd_std he hbody, K.run_pure]))
    · exact ⟨rfl, rfl, rfl, rfl, rfl, rfl, rfl⟩
    · rfl
    · rfl
  · intro e w₂ hx he
    have hbody : (executeBody env I m c).run w₀ = (.exc e, { w₂ with out := w₂.out ++ [.threw e] }) := by
      rw [executeBody_good env I m c hf, hrun, call_exc hx]
      simp only [K.andThen_exc]
    exact hfor e _ he (run_catchStd_foreign he hbody)
  · intro j w₂ hx hbad
    have hbody : (executeBody env I m c).run w₀ = (.exc .typeError, w₂) := by
      rw [executeBody_good env I m c hf, hrun, call_ok hx]
      simp only [K.andThen_ok]
      by_cases ho : j.isObj = true ∨ j = .null
      · rw [set_eq_put ho, K.andThen_ok, strField_none (Json.put_isObj ..), K.andThen_exc]
        rw [strField_put (by decide)]
        rcases hbad with h | h
        · exact absurd ho h
        · exact h
      · rw [set_fails ho, K.andThen_exc]
    refine concludes_mk ?_ ?_ ?_ (hok _ (by
      show (K.catchStd (executeBody env I m c) fun _ => pure ()).run w₀ = _
      rw [run_catchStd_std rfl hbody, K.run_pure]))
    · exact ⟨rfl, rfl, rfl, rfl, rfl, rfl, rfl⟩
    · rfl
    · simp
  · intro j w₂ s hx ho hst
    rw [hx] at hu
    have hcnt : w₂.count = execCount w f := hu.count.trans hat.count
    have hpar : w₂.parent c = ⟨m.ids, m.body.header⟩ := by rw [hu.parent]; exact hat.cur
    have hin : InInt (execCount w f) := by
      unfold execCount
      split
      · exact hc'
      · rename_i h; exact hc (by simpa using h)
    have hbody : (executeBody env I m c).run w₀ =
        K.andThen ((sendReply env (lit "execute_reply") (.obj [(lit "started", .str (env.now w₀.clocks))])
          (j.put (lit "execution_count") (.int (execCount w f))) c).run w₂)
          fun _ w₃ => (tailK env f.silent (f.store && !f.silent) f.line f.code s f.stop).run w₃ := by
      rw [executeBody_good env I m c hf, hrun, call_ok hx]
      simp only [K.andThen_ok]
      rw [set_eq_put ho, K.andThen_ok, strField_value (s := s) (Json.put_isObj ..), K.andThen_ok, hcnt]
      rw [strField_put (by decide)]
      exact hst
    refine ⟨_, withMember_put ho "execution_count" _, fun hj => printable_put hj (utf8_lit (by decide))
      (int_printable hin), ?_⟩
    rcases sendReply_either hs (w := w₂) (c := c) (ids := m.ids)
      (h := m.body.header) (t := lit "execute_reply") (md := .obj [(lit "started", .str (env.now w₀.clocks))])
      (j := j.put (lit "execution_count") (.int (execCount w f))) hpar hparsed.1 (utf8_lit (by decide))
      (obj1_printable (utf8_lit (by decide)) (str_printable fun h => hs.now h _)) with ⟨hj, rep, hrep, hsend⟩ | ⟨hj, hsend⟩
    · rw [hsend, K.andThen_ok] at hbody
      exact .inl ⟨hj, _, rep, ⟨_, rfl⟩, hrep, exec_end hs I c hok hub rfl hbody⟩
    · rw [hsend, K.andThen_exc] at hbody
      refine .inr ⟨hj, concludes_mk ?_ ?_ ?_ (hok _ (by
        show (K.catchStd (executeBody env I m c) fun _ => pure ()).run w₀ = _
        rw [run_catchStd_std rfl hbody, K.run_pure]))⟩
      · exact ⟨rfl, rfl, rfl, rfl, rfl, rfl, rfl⟩
      · rfl
      · simp [tick]
  · intro s w₂ hx
    refine hub s _ (run_catchStd_ub ?_)
    rw [executeBody_good env I m c hf, hrun, call_ub hx]
    simp only [K.andThen_ub]
  · intro w₂ hx
    refine hhang _ (run_catchStd_hang ?_)
    rw [executeBody_good env I m c hf, hrun, call_hang hx]
    simp only [K.andThen_hang]

/-- An execute request with a field of the wrong type. -/
theorem exec_bad {env : Env} (hs : Sane env) (I : Interp σ) {q : Multipart} {m : XMessage} (c : Chan)
    (ha : Accepted env.C env.J env.auth q m) (hr : IsReq m .execute) (hf : execFields m.body.content = none)
    (hw : ¬ ExecWild m.body.content) (w : World σ) : ∃ w₀, Begun env m c w w₀ ∧ Concludes env m c w₀ [] ((dispatch env I q c).run w) := by
  obtain ⟨w₀, hb, hok, _⟩ := dispatch_req hs I c ha hr w
  refine ⟨w₀, hb, concludes_mk (.refl w₀) rfl (by simp) (hok _ ?_)⟩
  show (K.catchStd (executeBody env I m c) fun _ => pure ()).run w₀ = _
  rw [run_catchStd_std rfl (executeBody_bad env I m c hf hw w₀), K.run_pure]

/-- An overflowing execution count. -/
theorem exec_overflow {env : Env} (hs : Sane env) (I : Interp σ) {q : Multipart} {m : XMessage} (c : Chan)
    {f : ExecFields} (ha : Accepted env.C env.J env.auth q m) (hr : IsReq m .execute)
    (hf : execFields m.body.content = some f) {w : World σ} (hsil : f.silent = false) (hc : ¬ InInt (w.count + 1)) :
    ∃ s, ((dispatch env I q c).run w).1 = .ub s := by
  obtain ⟨w₀, hb, _, _, _, hub, _⟩ := dispatch_req hs I c ha hr w
  obtain ⟨s, hov⟩ := announce_overflow (env := env) (code := f.code) (w := { w₀ with clocks := w₀.clocks + 1 })
    (by show ¬ InInt (w₀.count + 1); rw [hb.count]; exact hc)
  refine ⟨s, ?_⟩
  rw [hub s { w₀ with clocks := w₀.clocks + 1 }]
  show (K.catchStd (executeBody env I m c) fun _ => pure ()).run w₀ = _
  refine run_catchStd_ub ?_
  rw [executeBody_good env I m c hf, hsil]
  simp only [interpExecute, K.run_bind, hov, K.andThen_ub]

end Xeus
