import Verif.Kernel.Dispatch

/-!
# Exact runs of the handlers (no property statements here)
-/

namespace Xeus

open Spec K

variable {σ : Type}

/-! ## Dispatch as a whole -/

theorem run_catchStd_ok {α : Type} {m : K (World σ) α} {h : Exc → K (World σ) α} {w w' : World σ} {a : α}
    (hm : m.run w = (.ok a, w')) : (m.catchStd h).run w = (.ok a, w') := by
  simp only [K.catchStd, K.run_bind, K.run_attempt, hm, K.captured_ok, K.andThen_ok, K.run_pure]

theorem run_catchStd_std {α : Type} {m : K (World σ) α} {h : Exc → K (World σ) α} {w w' : World σ} {e : Exc}
    (he : e.isStd = true) (hm : m.run w = (.exc e, w')) : (m.catchStd h).run w = (h e).run w' := by
  simp only [K.catchStd, K.run_bind, K.run_attempt, hm, K.captured_exc, K.andThen_ok, he, if_true]

theorem run_catchStd_foreign {α : Type} {m : K (World σ) α} {h : Exc → K (World σ) α} {w w' : World σ} {e : Exc}
    (he : e.isStd = false) (hm : m.run w = (.exc e, w')) : (m.catchStd h).run w = (.exc e, w') := by
  simp only [K.catchStd, K.run_bind, K.run_attempt, hm, K.captured_exc, K.andThen_ok, he, Bool.false_eq_true,
    if_false, K.run_throw]

theorem run_catchStd_ub {α : Type} {m : K (World σ) α} {h : Exc → K (World σ) α} {w w' : World σ} {s : String}
    (hm : m.run w = (.ub s, w')) : (m.catchStd h).run w = (.ub s, w') := by
  simp only [K.catchStd, K.run_bind, K.run_attempt, hm, K.captured_ub, K.andThen_ub]

theorem run_catchStd_hang {α : Type} {m : K (World σ) α} {h : Exc → K (World σ) α} {w w' : World σ}
    (hm : m.run w = (.hang, w')) : (m.catchStd h).run w = (.hang, w') := by
  simp only [K.catchStd, K.run_bind, K.run_attempt, hm, K.captured_hang, K.andThen_hang]

theorem catchStd_nostd {m : K (World σ) Unit} {w : World σ} {e : Exc}
    (h : ((m.catchStd fun _ => Pure.pure ()).run w).1 = .exc e) : e.isStd = false := by
  rcases hx : m.run w with ⟨y, w'⟩
  cases y with
  | ok a => rw [run_catchStd_ok hx] at h; simp at h
  | exc e' =>
    cases he : e'.isStd with
    | true => rw [run_catchStd_std he hx] at h; simp at h
    | false => rw [run_catchStd_foreign he hx] at h; simp at h; exact h ▸ he
  | ub s => rw [run_catchStd_ub hx] at h; simp at h
  | hang => rw [run_catchStd_hang hx] at h; simp at h

theorem isStd_false {e : Exc} (h : e.isStd = false) : ∃ n, e = .foreign n := by
  cases e <;> simp [Exc.isStd] at h ⊢

/-- A dispatch of an accepted message of a given type, in its three parts. -/
theorem dispatch_parts {env : Env} (hs : Sane env) (I : Interp σ) {q : Multipart} {m : XMessage} (c : Chan) {t : Str}
    (ha : Accepted env.C env.J env.auth q m) (ht : typeOf m.body.header = some t) (w : World σ) :
    ∃ w₀ x, Begun env m c w w₀ ∧ x = (handleType env I t m c).run w₀ ∧
      ((getHandler t = none ∧ x = (.ok (), w₀)) ∨ ∃ r, IsReq m r ∧ HQ env r c w₀ x) ∧
      (∀ e, x.1 = .exc e → ∃ n, e = .foreign n) ∧ x.2.parent = w₀.parent ∧
      ((x.1 = .ok () ∧ ∃ i, IsStatus env c "idle" m.body.header i ∧
          (dispatch env I q c).run w = (.ok (), { tick x.2 with out := x.2.out ++ [i] })) ∨
        (x.1 ≠ .ok () ∧ (dispatch env I q c).run w = x)) := by
  obtain ⟨w₀, hb, hrun⟩ := dispatch_begin hs I c ha w
  rw [value_typeOf ht, K.andThen_ok] at hrun
  have hcases : (getHandler t = none ∧ (handleType env I t m c).run w₀ = (.ok (), w₀)) ∨
      ∃ r, IsReq m r ∧ HQ env r c w₀ ((handleType env I t m c).run w₀) := by
    cases hg : getHandler t with
    | none => exact .inl ⟨rfl, by simp only [handleType, hg, K.run_pure]⟩
    | some r =>
      refine .inr ⟨r, by rw [IsReq, ht, getHandler_some hg], ?_⟩
      simp only [handleType, hg]
      exact HOk.catchStd (h_handle hs I m c r) w₀
  refine ⟨w₀, _, hb, rfl, hcases, ?_, ?_, ?_⟩
  · intro e he
    cases hg : getHandler t with
    | none => simp only [handleType, hg, K.run_pure] at he; simp at he
    | some r =>
      simp only [handleType, hg] at he
      exact isStd_false (catchStd_nostd he)
  · rcases hcases with ⟨_, h⟩ | ⟨r, _, h⟩
    · rw [h]
    · exact h.parent
  · have hpar : ((handleType env I t m c).run w₀).2.parent = w₀.parent := by
      rcases hcases with ⟨_, h⟩ | ⟨r, _, h⟩
      · rw [h]
      · exact h.parent
    rw [hrun]
    generalize (handleType env I t m c).run w₀ = x at hpar ⊢
    obtain ⟨y, w₁⟩ := x
    cases y with
    | ok a =>
      obtain ⟨i, hi, hi'⟩ := dispatch_end hs (w := w₁) (c := c) ha (by rw [hpar, hb.cur])
      exact .inl ⟨rfl, i, hi, by rw [K.andThen_ok, hi']⟩
    | exc e => exact .inr ⟨by simp, by rw [K.andThen_exc]⟩
    | ub s => exact .inr ⟨by simp, by rw [K.andThen_ub]⟩
    | hang => exact .inr ⟨by simp, by rw [K.andThen_hang]⟩

theorem handleType_req (env : Env) (I : Interp σ) (r : Req) (m : XMessage) (c : Chan) :
    handleType env I (lit (requestType r)) m c = K.catchStd (handle env I r m c) fun _ => pure () := by
  simp only [handleType, getHandler_req]

/-- A dispatch of a request, given the run of its handler. -/
theorem dispatch_req {env : Env} (hs : Sane env) (I : Interp σ) {q : Multipart} {m : XMessage} (c : Chan) {r : Req}
    (ha : Accepted env.C env.J env.auth q m) (hr : IsReq m r) (w : World σ) :
    ∃ w₀, Begun env m c w w₀ ∧
      (∀ w', (handle env I r m c).run w₀ = (.ok (), w') → ∃ i, IsStatus env c "idle" m.body.header i ∧
        (dispatch env I q c).run w = (.ok (), { tick w' with out := w'.out ++ [i] })) ∧
      (∀ e w', e.isStd = true → (handle env I r m c).run w₀ = (.exc e, w') → ∃ i,
        IsStatus env c "idle" m.body.header i ∧
        (dispatch env I q c).run w = (.ok (), { tick w' with out := w'.out ++ [i] })) ∧
      (∀ e w', e.isStd = false → (handle env I r m c).run w₀ = (.exc e, w') →
        (dispatch env I q c).run w = (.exc e, w')) ∧
      (∀ s w', (handle env I r m c).run w₀ = (.ub s, w') → (dispatch env I q c).run w = (.ub s, w')) ∧
      (∀ w', (handle env I r m c).run w₀ = (.hang, w') → (dispatch env I q c).run w = (.hang, w')) := by
  obtain ⟨w₀, x, hb, hx, _, _, _, hf⟩ := dispatch_parts hs I c ha hr w
  rw [handleType_req] at hx
  refine ⟨w₀, hb, ?_, ?_, ?_, ?_, ?_⟩
  · intro w' h
    rw [run_catchStd_ok h] at hx
    subst hx
    rcases hf with ⟨_, h⟩ | ⟨h, _⟩
    · exact h
    · simp at h
  · intro e w' he h
    rw [run_catchStd_std he h, K.run_pure] at hx
    subst hx
    rcases hf with ⟨_, h⟩ | ⟨h, _⟩
    · exact h
    · simp at h
  · intro e w' he h
    rw [run_catchStd_foreign he h] at hx
    subst hx
    rcases hf with ⟨h, _⟩ | ⟨_, h⟩
    · simp at h
    · exact h
  · intro s w' h
    rw [run_catchStd_ub h] at hx
    subst hx
    rcases hf with ⟨h, _⟩ | ⟨_, h⟩
    · simp at h
    · exact h
  · intro w' h
    rw [run_catchStd_hang h] at hx
    subst hx
    rcases hf with ⟨h, _⟩ | ⟨_, h⟩
    · simp at h
    · exact h

/-! ## Calling user code and answering -/

theorem call_ok {Ω α : Type} {sem : Ω → K (World σ) Val} {k : Call} {p : Prog σ Ω α} {w₀ w₂ : World σ} {a : α}
    (h : (p.exec sem).run { w₀ with out := w₀.out ++ [.call k] } = (.ok a, w₂)) :
    (userCall sem k p).run w₀ = (.ok a, w₂) := by rw [run_userCall, h]

theorem call_exc {Ω α : Type} {sem : Ω → K (World σ) Val} {k : Call} {p : Prog σ Ω α} {w₀ w₂ : World σ} {e : Exc}
    (h : (p.exec sem).run { w₀ with out := w₀.out ++ [.call k] } = (.exc e, w₂)) :
    (userCall sem k p).run w₀ = (.exc e, { w₂ with out := w₂.out ++ [.threw e] }) := by rw [run_userCall, h]

theorem call_ub {Ω α : Type} {sem : Ω → K (World σ) Val} {k : Call} {p : Prog σ Ω α} {w₀ w₂ : World σ} {s : String}
    (h : (p.exec sem).run { w₀ with out := w₀.out ++ [.call k] } = (.ub s, w₂)) :
    (userCall sem k p).run w₀ = (.ub s, w₂) := by rw [run_userCall, h]

theorem call_hang {Ω α : Type} {sem : Ω → K (World σ) Val} {k : Call} {p : Prog σ Ω α} {w₀ w₂ : World σ}
    (h : (p.exec sem).run { w₀ with out := w₀.out ++ [.call k] } = (.hang, w₂)) :
    (userCall sem k p).run w₀ = (.hang, w₂) := by rw [run_userCall, h]

theorem sendReply_with {env : Env} (hs : Sane env) {c : Chan} {ids : List Str} {h : Json} {t : Str} {md j : Json}
    {w : World σ} (hp : w.parent c = ⟨ids, h⟩) (hh : Parsed h) (ht : Utf8 t) (hm : Printable env.eh md)
    (hj : Printable env.eh j) :
    ∃ rep, IsReplyWith env c ids h t md j rep ∧
      (sendReply env t md j c).run w = (.ok (), { tick w with out := w.out ++ [rep] }) := by
  obtain ⟨wire, _, hrun⟩ := sendReplyTo_ok hs (ids := ids) (type := t) (parent := h) c (w := w) hh ht hm hj
  refine ⟨.reply c (replyAt env w ids t h md j) wire, ⟨_, wire, rfl, rfl, rfl, hdrAt_wf env w t, rfl, rfl, rfl⟩, ?_⟩
  rw [run_sendReply, hp]
  exact hrun

theorem serializeBase_fail {C : Crypto} {K : Codec} (hK : LawfulCodec K) (a : Auth) {b : Body}
    (h : ¬ JsonUtf8 b.content) : serializeBase C K a .strict b = .exc .typeError := by
  have := hK.dump_strict _ h
  unfold serializeBase Codec.writeZmq
  cases K.dump .strict b.header <;> simp
  cases K.dump .strict b.parent <;> simp
  cases K.dump .strict b.metadata <;> simp
  rw [this]
  simp

theorem sendReply_fail {env : Env} (hs : Sane env) {c : Chan} {t : Str} {md j : Json} (he : env.eh = .strict)
    (hj : ¬ JsonUtf8 j) (w : World σ) : (sendReply env t md j c).run w = (.exc .typeError, tick w) := by
  rw [run_sendReply, run_sendReplyTo, hs.log, K.andThen_ok, he]
  have : serialize env.C env.J env.auth .strict (replyAt env w (w.parent c).ids t (w.parent c).header md j) =
      .exc .typeError := by
    unfold serialize
    rw [serializeBase_fail hs.codec env.auth (by exact hj)]
    simp
  rw [this, K.andThen_exc]

/-- A reply is sent or not. -/
theorem sendReply_either {env : Env} (hs : Sane env) {c : Chan} {ids : List Str} {h : Json} {t : Str} {md j : Json}
    {w : World σ} (hp : w.parent c = ⟨ids, h⟩) (hh : Parsed h) (ht : Utf8 t) (hm : Printable env.eh md) :
    ((env.eh = .strict → JsonUtf8 j) ∧ ∃ rep, IsReplyWith env c ids h t md j rep ∧
      (sendReply env t md j c).run w = (.ok (), { tick w with out := w.out ++ [rep] })) ∨
    (¬ Printable env.eh j ∧ (sendReply env t md j c).run w = (.exc .typeError, tick w)) := by
  by_cases hj : Printable env.eh j
  · exact .inl ⟨hj.2, sendReply_with hs hp hh ht hm hj⟩
  by_cases hu : env.eh = .strict ∧ ¬ JsonUtf8 j
  · exact .inr ⟨hj, sendReply_fail hs hu.1 hu.2 w⟩
  have hu' : env.eh = .strict → JsonUtf8 j := fun he => Classical.byContradiction fun h => hu ⟨he, h⟩
  rw [run_sendReply, hp]
  rcases sendReplyTo_cases hs.log ids t h md j c w with ⟨wire, _, hrun⟩ | hrun
  · exact .inl ⟨hu', .reply c (replyAt env w ids t h md j) wire,
      ⟨_, wire, rfl, rfl, rfl, hdrAt_wf env w t, rfl, rfl, rfl⟩, hrun⟩
  · exact .inr ⟨hj, hrun⟩

theorem atCall_of_begun {env : Env} {m : XMessage} {c : Chan} {w w₀ : World σ} (hb : Begun env m c w w₀) (k : Call) :
    AtCall env m c w w.count [] k { w₀ with out := w₀.out ++ [.call k] } := by
  obtain ⟨b, hb1, hb2⟩ := hb.out
  refine ⟨hb.cur, ?_, hb.st, hb.count, hb.input, hb.hist, hb.comm, hb.shellQ, hb.stdinQ, ⟨b, hb1, ?_⟩⟩
  · intro c' hc; rw [show w₀.parent c' = _ from congrFun hb.parent c']; simp [hc]
  · simp [hb2]

/-- Conclusion of a dispatch. -/
theorem concludes_mk {env : Env} {m : XMessage} {c : Chan} {w₂ w' : World σ} {evs : List Ev} {x : Res Unit × World σ}
    (hc : SameCore w₂ w') (hq : w'.shellQ = w₂.shellQ) (ho : w'.out = w₂.out ++ evs)
    (hx : ∃ i, IsStatus env c "idle" m.body.header i ∧ x = (.ok (), { tick w' with out := w'.out ++ [i] })) :
    Concludes env m c w₂ evs x := by
  obtain ⟨i, hi, rfl⟩ := hx
  exact ⟨rfl, hc.1, hc.2, hc.3, hc.4, hc.5, hc.6, hq, hc.7, ⟨i, hi, by simp [ho]⟩⟩

/-- The generic case: a handler that is a call of user code followed by the reply. -/
theorem call_then_answer {env : Env} (hs : Sane env) (I : Interp σ) {q : Multipart} {m : XMessage} (c : Chan)
    {r : Req} (ha : Accepted env.C env.J env.auth q m) (hr : IsReq m r) (w : World σ)
    {Ω : Type} {sem : Ω → K (World σ) Val} {k : Call} {p : Prog σ Ω Json} {t : String} {Md : Json → Prop}
    (hu : Keeps (URel env) (p.exec sem)) (ht : Utf8 (lit t)) {g : K (World σ) Json}
    (hg : ∀ w', ∃ md n, Md md ∧ Printable env.eh md ∧ g.run w' = (.ok md, { w' with clocks := n }))
    (hh : ∀ w₀, (handle env I r m c).run w₀ =
      K.andThen ((userCall sem k p).run w₀) fun j w' => K.andThen (g.run w') fun md w' =>
        (sendReply env (lit t) md j c).run w') :
    Verbatim env I q m c w sem k p t Md := by
  obtain ⟨w₀, hb, hok, hstd, hfor, hub, hhang⟩ := dispatch_req hs I c ha hr w
  have hk := hu { w₀ with out := w₀.out ++ [.call k] }
  refine ⟨{ w₀ with out := w₀.out ++ [.call k] }, atCall_of_begun hb k, ?_, ?_, ?_, ?_, ?_⟩
  · intro j w₂ hrun
    rw [hrun] at hk
    obtain ⟨md, n, hmd, hpm, hg⟩ := hg w₂
    rcases sendReply_either hs (w := { w₂ with clocks := n }) (c := c) (ids := m.ids) (j := j)
      (h := m.body.header) (by show w₂.parent c = _; rw [hk.parent]; exact hb.cur) (accepted_parsed hs ha).1 ht hpm
      with ⟨hj, rep, hrep, hsend⟩ | ⟨hj, hsend⟩
    · refine .inl ⟨hj, md, rep, hmd, hrep, concludes_mk ?_ ?_ ?_
        (hok _ (by rw [hh, call_ok hrun, K.andThen_ok, hg, K.andThen_ok, hsend]))⟩
      · exact ⟨rfl, rfl, rfl, rfl, rfl, rfl, rfl⟩
      · rfl
      · rfl
    · refine .inr ⟨hj, concludes_mk ?_ ?_ ?_ (hstd .typeError _ rfl
        (by rw [hh, call_ok hrun, K.andThen_ok, hg, K.andThen_ok, hsend]))⟩
      · exact ⟨rfl, rfl, rfl, rfl, rfl, rfl, rfl⟩
      · rfl
      · simp [tick]
  · intro e w₂ hrun he
    refine concludes_mk ?_ ?_ ?_ (hstd e _ he (by rw [hh, call_exc hrun, K.andThen_exc]))
    · exact ⟨rfl, rfl, rfl, rfl, rfl, rfl, rfl⟩
    · rfl
    · rfl
  · intro e w₂ hrun he
    exact hfor e _ he (by rw [hh, call_exc hrun, K.andThen_exc])
  · intro s w₂ hrun
    exact hub s _ (by rw [hh, call_ub hrun, K.andThen_ub])
  · intro w₂ hrun
    exact hhang _ (by rw [hh, call_hang hrun, K.andThen_hang])

/-- Metadata of replies that record when handling started. -/
theorem getMetadata_started {env : Env} (hs : Sane env) (w' : World σ) :
    ∃ md n, Started md ∧ Printable env.eh md ∧ (getMetadata env).run w' = (.ok md, { w' with clocks := n }) := by
  rw [run_getMetadata]
  exact ⟨_, _, ⟨_, rfl⟩, obj1_printable (utf8_lit (by decide)) (str_printable fun h => hs.now h _), rfl⟩

theorem pure_empty (env : Env) (w' : World σ) :
    ∃ md n, md = .obj [] ∧ Printable env.eh md ∧
      (pure (.obj []) : K (World σ) Json).run w' = (.ok md, { w' with clocks := n }) := by
  rw [K.run_pure]
  exact ⟨_, w'.clocks, rfl, emptyObj_printable _, rfl⟩

/-! ## Setting a member -/

theorem jsonUtf8_put {j : Json} {k : Str} {v : Json} (hj : JsonUtf8 j) (hk : Utf8 k) (hv : JsonUtf8 v) :
    JsonUtf8 (j.put k v) := by
  have hmem : ∀ l : List (Str × Json), ∀ kv ∈ Json.insertKV k v l, kv = (k, v) ∨ kv ∈ l := by
    intro l
    induction l with
    | nil => intro kv h; simpa [Json.insertKV] using h
    | cons x xs ih =>
      intro kv h
      simp only [Json.insertKV] at h
      split at h
      · rcases List.mem_cons.mp h with h | h
        · exact .inl h
        · exact .inr (List.mem_cons_of_mem _ h)
      · split at h
        · rcases List.mem_cons.mp h with h | h
          · exact .inl h
          · exact .inr h
        · rcases List.mem_cons.mp h with h | h
          · exact .inr (h ▸ List.mem_cons_self)
          · rcases ih kv h with h | h
            · exact .inl h
            · exact .inr (List.mem_cons_of_mem _ h)
  cases hj with
  | obj h1 h2 =>
    rename_i kvs
    refine .obj ?_ ?_ <;> intro kv hkv <;> rcases hmem kvs kv hkv with rfl | h
    · exact hk
    · exact h1 _ h
    · exact hv
    · exact h2 _ h
  | _ => exact .obj (by simp [hk]) (by simp [hv])

theorem printable_put {eh : ErrH} {j : Json} {k : Str} {v : Json} (hj : Printable eh j) (hk : Utf8 k)
    (hv : Printable eh v) : Printable eh (j.put k v) :=
  ⟨Json.canon_put k hj.1 hv.1, fun he => jsonUtf8_put (hj.2 he) hk (hv.2 he)⟩

theorem set_eq_put {j : Json} (h : j.isObj = true ∨ j = .null) (k : Str) (v : Json) :
    j.set k v = .ok (j.put k v) := by
  rcases h with h | rfl
  · cases j <;> simp [Json.isObj] at h; rfl
  · rfl

theorem set_fails {j : Json} (h : ¬ (j.isObj = true ∨ j = .null)) (k : Str) (v : Json) :
    j.set k v = .exc .typeError := by
  cases j <;> simp [Json.isObj] at h <;> rfl

theorem withMember_put {j : Json} (h : j.isObj = true ∨ j = .null) (k : String) (v : Json) :
    WithMember j k v (j.put (lit k) v) :=
  ⟨h, Json.put_isObj .., fun k' => by rw [Json.find?_put]; simp [eq_comm]⟩

theorem int_printable {eh : ErrH} {n : Int} (h : InInt n) : Printable eh (.int n) := by
  refine ⟨?_, fun _ => .int⟩
  unfold InInt intMin intMax at h
  simp [Json.canon, Json.inRange]
  omega

theorem parsed_str {j : Json} (h : Parsed j) {k d : String} {s : Str} (hd : Utf8 (lit d))
    (hf : strField j k d = some s) : Utf8 s := by
  unfold strField at hf
  cases j with
  | obj kvs =>
    cases hl : Json.lookup (lit k) kvs with
    | none => simp [Json.find?, hl] at hf; exact hf ▸ hd
    | some v =>
      have hm := Json.lookup_mem hl
      cases v <;> simp [Json.find?, hl] at hf
      subst hf
      cases h.2 with
      | obj _ h2 => cases h2 _ hm with | str h => exact h
  | _ => simp [Json.find?] at hf; exact hf ▸ hd

/-! ## Execute requests -/

section
variable (env : Env) (I : Interp σ) (m : XMessage) (c : Chan)

theorem executeBody_wild (hf : ExecWild m.body.content) (w : World σ) :
    (executeBody env I m c).run w = (.ub "conversion of a double that does not fit", w) := by
  obtain ⟨ho, h1, h2, h3, h4⟩ := hf
  simp only [Option.isSome_iff_exists] at h1 h2 h3
  obtain ⟨_, h1⟩ := h1
  obtain ⟨_, h2⟩ := h2
  obtain ⟨_, h3⟩ := h3
  simp only [executeBody, K.run_bind, K.run_ofRes]
  rw [show ([] : Str) = lit "" from rfl, strField_value ho h1, K.andThen_ok, boolField_value ho h2, K.andThen_ok,
    boolField_value ho h3, K.andThen_ok, (intField_wild ho h4).1, K.andThen_ub]

theorem executeBody_bad (hf : execFields m.body.content = none) (hw : ¬ ExecWild m.body.content) (w : World σ) :
    (executeBody env I m c).run w = (.exc .typeError, w) := by
  unfold execFields at hf
  simp only [executeBody, K.run_bind, K.run_ofRes]
  cases ho : m.body.content.isObj with
  | false => rw [value_nonobj ho, K.andThen_exc]
  | true =>
    rw [if_pos ho] at hf
    cases h1 : strField m.body.content "code" "" with
    | none => rw [show ([] : Str) = lit "" from rfl, strField_none ho h1, K.andThen_exc]
    | some code =>
    rw [show ([] : Str) = lit "" from rfl, strField_value ho h1, K.andThen_ok]
    cases h2 : boolField m.body.content "silent" false with
    | none => rw [boolField_none ho h2, K.andThen_exc]
    | some silent =>
    rw [boolField_value ho h2, K.andThen_ok]
    cases h3 : boolField m.body.content "store_history" true with
    | none => rw [boolField_none ho h3, K.andThen_exc]
    | some store =>
    rw [boolField_value ho h3, K.andThen_ok]
    cases h4 : intField m.body.content "execution_count" 1 with
    | none =>
      rw [intField_none ho (fun h => hw ⟨ho, by simp [h1], by simp [h2], by simp [h3], h⟩) h4, K.andThen_exc]
    | some line =>
    rw [intField_value ho h4, K.andThen_ok, jsonField_value ho, K.andThen_ok]
    cases h5 : boolField m.body.content "allow_stdin" true with
    | none => rw [boolField_none ho h5, K.andThen_exc]
    | some allow =>
    rw [boolField_value ho h5, K.andThen_ok]
    cases h6 : boolField m.body.content "stop_on_error" false with
    | none => rw [boolField_none ho h6, K.andThen_exc]
    | some stop => simp [h1, h2, h3, h4, h5, h6] at hf

theorem executeBody_good {f : ExecFields} (hf : execFields m.body.content = some f) (w : World σ) :
    (executeBody env I m c).run w =
      K.andThen ((interpExecute env I f.code f.silent (f.store && !f.silent) f.exprs f.allow).run
        { w with clocks := w.clocks + 1 }) fun reply w₂ =>
      K.andThen (reply.value (lit "status") Json.getStr (lit "error"), w₂) fun status w₂ =>
      K.andThen ((sendReply env (lit "execute_reply") (.obj [(lit "started", .str (env.now w.clocks))]) reply c).run w₂)
        fun _ w₃ => (tailK env f.silent (f.store && !f.silent) f.line f.code status f.stop).run w₃ := by
  unfold execFields at hf
  cases ho : m.body.content.isObj with
  | false => simp [ho] at hf
  | true =>
    rw [if_pos ho] at hf
    simp only [Option.bind_eq_bind, Option.bind_eq_some_iff, Option.pure_def, Option.some.injEq] at hf
    obtain ⟨code, h1, silent, h2, store, h3, line, h4, allow, h5, stop, h6, rfl⟩ := hf
    simp only [executeBody, tailK, K.run_bind, K.run_ofRes]
    rw [show ([] : Str) = lit "" from rfl, strField_value ho h1, K.andThen_ok, boolField_value ho h2, K.andThen_ok,
      boolField_value ho h3, K.andThen_ok, intField_value ho h4, K.andThen_ok, jsonField_value ho, K.andThen_ok,
      boolField_value ho h5, K.andThen_ok, boolField_value ho h6, K.andThen_ok]
    simp only [run_getMetadata, K.andThen_ok]

/-- The call and what follows it in `xinterpreter::execute_request`. -/
theorem run_interp_call (code : Str) (silent store : Bool) (exprs : Json) (allow : Bool) {w w' : World σ}
    (ha : (announce env code silent).run w = (.ok (), w')) :
    (interpExecute env I code silent store exprs allow).run w =
      K.andThen ((userCall (Op.sem env) (.execute w'.count code silent store exprs allow)
        (I.execute w'.count code silent store exprs allow)).run w') fun reply w₂ =>
        (reply.set (lit "execution_count") (.int w₂.count), w₂) := by
  simp only [interpExecute, K.run_bind, ha, K.andThen_ok, K.run_read, K.run_ofRes]

theorem announce_silent (code : Str) (w : World σ) : (announce env code true).run w = (.ok (), w) := by
  simp only [announce, Bool.true_eq_false, if_false, K.run_pure]

variable {env}

theorem announce_loud (hs : Sane env) {code : Str} (hu : Utf8 code) {w : World σ} (hc : InInt (w.count + 1))
    (hp : Parsed (w.parent .shell).header) :
    ∃ ev w', IsPub env .shell (lit "execute_input") (w.parent .shell).header (.obj [])
        (.obj [(lit "code", .str code), (lit "execution_count", .int (w.count + 1))]) [] ev ∧
      (announce env code false).run w = (.ok (), w') ∧ w'.parent = w.parent ∧ w'.st = w.st ∧ w'.count = w.count + 1 ∧
      w'.input = w.input ∧ w'.hist = w.hist ∧ w'.comm = w.comm ∧ w'.shellQ = w.shellQ ∧ w'.stdinQ = w.stdinQ ∧
      w'.out = w.out ++ [ev] := by
  have hcontent : PubOp.content (.execInput code (w.count + 1)) =
      .obj [(lit "code", .str code), (lit "execution_count", .int (w.count + 1))] := by
    simp only [PubOp.content, Json.put, Json.insertKV]
    simp (decide := true) only [if_false]
  have hcp : Printable env.eh (PubOp.content (.execInput code (w.count + 1))) := by
    show Printable env.eh ((Json.put .null (lit "code") (.str code)).put (lit "execution_count") (.int (w.count + 1)))
    exact printable_put (printable_put ⟨by decide, fun _ => .null⟩ (utf8_lit (by decide)) (str_printable fun _ => hu))
      (utf8_lit (by decide)) (int_printable hc)
  obtain ⟨wire, _, h⟩ := publishMessage_ok hs (type := lit "execute_input") (metadata := .obj [])
    (content := PubOp.content (.execInput code (w.count + 1))) [] (c := .shell) (w := { w with count := w.count + 1 })
    hp (utf8_lit (by decide)) (emptyObj_printable _) hcp
  refine ⟨.pub .shell (pubAt env { w with count := w.count + 1 } (lit "execute_input") (.obj [])
    (PubOp.content (.execInput code (w.count + 1))) [] .shell) wire,
    { tick { w with count := w.count + 1 } with
      out := w.out ++ [.pub .shell (pubAt env { w with count := w.count + 1 } (lit "execute_input") (.obj [])
        (PubOp.content (.execInput code (w.count + 1))) [] .shell) wire] },
    ⟨_, wire, rfl, rfl, hdrAt_wf env _ _, rfl, rfl, hcontent, rfl⟩, ?_, rfl, rfl, rfl, rfl, rfl, rfl, rfl, rfl, rfl⟩
  have hadd : intAdd w.count 1 = .ok (w.count + 1) := by unfold intAdd; rw [if_pos hc]
  simp only [announce, if_true, K.run_bind, incCount, K.run_lift, hadd, K.andThen_ok, K.run_read, publishOp, PubOp.type]
  exact h

theorem announce_overflow {code : Str} {w : World σ} (hc : ¬ InInt (w.count + 1)) :
    ∃ s, (announce env code false).run w = (.ub s, w) := by
  have hadd : ∃ s, intAdd w.count 1 = .ub s := by unfold intAdd; rw [if_neg hc]; exact ⟨_, rfl⟩
  obtain ⟨s, hadd⟩ := hadd
  exact ⟨s, by simp only [announce, if_true, K.run_bind, incCount, K.run_lift, hadd, K.andThen_ub]⟩

end

/-- The state in which user code executes an accepted, well-formed execute request. -/
theorem exec_at_call {env : Env} (hs : Sane env) (I : Interp σ) {m : XMessage} (c : Chan) {f : ExecFields}
    (hm : Parsed m.body.header) (hct : Parsed m.body.content)
    (hf : execFields m.body.content = some f) {w : World σ} (hp : ParentsOk w)
    (hc : f.silent = false → InInt (w.count + 1)) {w₀ : World σ} (hb : Begun env m c w w₀) :
    ∃ w₁' pre, AtCall env m c w (execCount w f) pre (execCall w f) { w₁' with out := w₁'.out ++ [.call (execCall w f)] } ∧
      ExecAnnounce env m c w f pre ∧
      (interpExecute env I f.code f.silent (f.store && !f.silent) f.exprs f.allow).run
        { w₀ with clocks := w₀.clocks + 1 } =
        K.andThen ((userCall (Op.sem env) (execCall w f) (execProg I w f)).run w₁') fun reply w₂ =>
        (reply.set (lit "execution_count") (.int w₂.count), w₂) := by
  obtain ⟨b, hb1, hb2⟩ := hb.out
  have hother : ∀ c', c' ≠ c → w₀.parent c' = w.parent c' := by
    intro c' hc'; rw [show w₀.parent c' = _ from congrFun hb.parent c']; simp [hc']
  cases hsil : f.silent with
  | true =>
    refine ⟨{ w₀ with clocks := w₀.clocks + 1 }, [], ⟨hb.cur, hother, hb.st, ?_, hb.input, hb.hist, hb.comm, hb.shellQ,
      hb.stdinQ, ⟨b, hb1, by simp [hb2]⟩⟩, by simp [ExecAnnounce, hsil], ?_⟩
    · simp [execCount, hsil, hb.count]
    · rw [run_interp_call env I f.code true (f.store && !true) f.exprs f.allow (announce_silent env f.code _)]
      simp [execCall, execProg, execCount, hsil, hb.count]
  | false =>
    have hcode : Utf8 f.code := by
      unfold execFields at hf
      cases ho : m.body.content.isObj with
      | false => simp [ho] at hf
      | true =>
        rw [if_pos ho] at hf
        simp only [Option.bind_eq_bind, Option.bind_eq_some_iff, Option.pure_def, Option.some.injEq] at hf
        obtain ⟨code, h1, _, _, _, _, _, _, _, _, _, _, rfl⟩ := hf
        exact parsed_str hct (utf8_lit (by decide)) h1
    have hpar : Parsed (w₀.parent .shell).header := by
      rw [show w₀.parent .shell = _ from congrFun hb.parent .shell]
      split
      · exact hm
      · exact hp .shell
    obtain ⟨ev, w', hev, hrun, e1, e2, e3, e4, e5, e6, e7, e8, e9⟩ :=
      announce_loud hs hcode (w := { w₀ with clocks := w₀.clocks + 1 })
        (by show InInt (w₀.count + 1); rw [hb.count]; exact hc hsil) hpar
    have hcnt : w'.count = w.count + 1 := by rw [e3]; show w₀.count + 1 = _; rw [hb.count]
    refine ⟨w', [ev], ⟨?_, ?_, e2.trans hb.st, ?_, e4.trans hb.input, e5.trans hb.hist, e6.trans hb.comm,
      e7.trans hb.shellQ, e8.trans hb.stdinQ, ⟨b, hb1, by simp [e9, hb2]⟩⟩, ?_, ?_⟩
    · show w'.parent c = _; rw [e1]; exact hb.cur
    · intro c' hc'; show w'.parent c' = _; rw [e1]; exact hother c' hc'
    · show w'.count = _; simp [execCount, hsil, hcnt]
    · simp only [ExecAnnounce, hsil, Bool.false_eq_true, if_false]
      refine ⟨ev, rfl, ?_⟩
      have : (w₀.parent .shell).header = shellParent m c w := by
        rw [show w₀.parent .shell = _ from congrFun hb.parent .shell]
        unfold shellParent
        by_cases h : c = .shell
        · subst h; simp
        · have : Chan.shell ≠ c := fun h' => h h'.symm
          simp [h, this]
      simp only [hb.count, this] at hev
      exact hev
    · rw [run_interp_call env I f.code false (f.store && !false) f.exprs f.allow hrun]
      simp only [execCall, execProg, execCount, hsil, hcnt, Bool.false_eq_true, if_false]

end Xeus
