import Verif.Kernel.Exec

/-!
# The block of events of one message (no property statements here)
-/

namespace Xeus

open Spec K

variable {σ : Type}

theorem UEv.output {env : Env} {par : Chan → Parent} {e : Ev} (h : UEv env par e) : IsOutput env (par .shell) e := by
  cases h with
  | @pub m wire t ht hw hp =>
    refine .inl ⟨m, wire, ?_⟩
    simp only [userTypes, List.mem_cons, List.not_mem_nil, or_false] at ht
    rcases ht with rfl | rfl | rfl | rfl | rfl | rfl | rfl | rfl | rfl | rfl
    · exact ⟨"stream", rfl, by simp [outputTypes], hw, hp⟩
    · exact ⟨"display_data", rfl, by simp [outputTypes], hw, hp⟩
    · exact ⟨"update_display_data", rfl, by simp [outputTypes], hw, hp⟩
    · exact ⟨"execute_input", rfl, by simp [outputTypes], hw, hp⟩
    · exact ⟨"execute_result", rfl, by simp [outputTypes], hw, hp⟩
    · exact ⟨"error", rfl, by simp [outputTypes], hw, hp⟩
    · exact ⟨"clear_output", rfl, by simp [outputTypes], hw, hp⟩
    · exact ⟨"comm_open", rfl, by simp [outputTypes], hw, hp⟩
    · exact ⟨"comm_close", rfl, by simp [outputTypes], hw, hp⟩
    · exact ⟨"comm_msg", rfl, by simp [outputTypes], hw, hp⟩
  | stdin h1 h2 h3 => exact .inr ⟨_, _, rfl, h1, h2, h3⟩

theorem PEv.inner {env : Env} {r : Req} {par : Chan → Parent} {e : Ev} (h : PEv env r par e) : Inner env r par e := by
  cases h with
  | user h => exact .inl h.output
  | call h => exact .inr (.inr (.inl ⟨_, rfl, h⟩))
  | threw => exact .inr (.inr (.inr (.inl ⟨_, rfl⟩)))
  | stop h => exact .inr (.inr (.inr (.inr ⟨rfl, h⟩)))
  | ctrl ht hw hp =>
    refine .inr (.inl ?_)
    rcases ht with ⟨hr, rfl⟩ | ⟨hr, rfl⟩
    · exact ⟨_, _, "shutdown", rfl, .inl ⟨hr, rfl⟩, hw, hp⟩
    · exact ⟨_, _, "interrupt", rfl, .inr ⟨hr, rfl⟩, hw, hp⟩

theorem output_not_status {env : Env} {p : Parent} {e : Ev} (h : IsOutput env p e) : ¬ AnyStatus e := by
  rintro ⟨c, m', wire', rfl, hty⟩
  rcases h with ⟨m, wire, t, he, ht, hw, _⟩ | ⟨_, _, he, _⟩
  · cases he
    rw [WfHeader.type hw] at hty
    revert hty
    simp only [outputTypes, List.mem_cons, List.not_mem_nil, or_false] at ht
    rcases ht with rfl | rfl | rfl | rfl | rfl | rfl | rfl | rfl | rfl | rfl <;> decide
  · cases he

theorem output_not_reply {env : Env} {p : Parent} {e : Ev} (h : IsOutput env p e) : ¬ AnyReply e := by
  rintro ⟨c, m', wire', rfl⟩
  rcases h with ⟨m, wire, t, he, _⟩ | ⟨_, _, he, _⟩ <;> cases he

theorem inner_not_status {env : Env} {r : Req} {par : Chan → Parent} {e : Ev} (h : Inner env r par e) :
    ¬ AnyStatus e := by
  rcases h with h | ⟨m, wire, t, rfl, ht, hw, _⟩ | ⟨k, rfl, _⟩ | ⟨x, rfl⟩ | ⟨rfl, _⟩
  · exact output_not_status h
  · rintro ⟨c, m', wire', he, hty⟩
    cases he
    rw [WfHeader.type hw] at hty
    revert hty
    rcases ht with ⟨_, rfl⟩ | ⟨_, rfl⟩ <;> decide
  all_goals rintro ⟨c, m', wire', he, hty⟩; cases he

theorem inner_not_reply {env : Env} {r : Req} {par : Chan → Parent} {e : Ev} (h : Inner env r par e) :
    ¬ AnyReply e := by
  rcases h with h | ⟨m, wire, t, rfl, ht, hw, _⟩ | ⟨k, rfl, _⟩ | ⟨x, rfl⟩ | ⟨rfl, _⟩
  · exact output_not_reply h
  all_goals rintro ⟨c, m', wire', he⟩; cases he

theorem isReply_any {env : Env} {c : Chan} {ids : List Str} {h : Json} {t : Str} {e : Ev}
    (hr : IsReply env c ids h t e) : AnyReply e := by
  obtain ⟨m, wire, rfl, _⟩ := hr; exact ⟨c, m, wire, rfl⟩

theorem isReplyWith_isReply {env : Env} {c : Chan} {ids : List Str} {h : Json} {t : Str} {md ct : Json} {e : Ev}
    (hr : IsReplyWith env c ids h t md ct e) : IsReply env c ids h t e := by
  obtain ⟨m, wire, h1, h2, h3, h4, h5, h6, h7⟩ := hr; exact ⟨m, wire, h1, h2, h3, h4, h7⟩

theorem anyReply_not_status {e : Ev} (h : AnyReply e) : ¬ AnyStatus e := by
  obtain ⟨c, m, wire, rfl⟩ := h
  rintro ⟨_, _, _, h, _⟩; cases h

theorem isStatus_any {env : Env} {c : Chan} {s : String} {h : Json} {e : Ev} (hs : IsStatus env c s h e) :
    AnyStatus e := by
  obtain ⟨m, wire, rfl, hw, _⟩ := hs; exact ⟨c, m, wire, rfl, WfHeader.type hw⟩

theorem isStatus_not_reply {env : Env} {c : Chan} {s : String} {h : Json} {e : Ev} (hs : IsStatus env c s h e) :
    ¬ AnyReply e := by
  obtain ⟨m, wire, rfl, _⟩ := hs
  rintro ⟨_, _, _, h⟩; cases h

theorem abortAll_reply {env : Env} {qs : List Multipart} {ab : List Ev} (h : AbortAll env qs ab) :
    ∀ e ∈ ab, AnyReply e := by
  induction h with
  | nil => simp
  | dropped _ _ ih => exact ih
  | answered _ ha _ ih =>
    intro e he
    rcases List.mem_cons.mp he with rfl | he
    · obtain ⟨_, _, _, _, h⟩ := ha
      exact isReply_any (isReplyWith_isReply h)
    · exact ih e he

theorem repliesIn_append (l r : List Ev) : repliesIn (l ++ r) = repliesIn l ++ repliesIn r := by
  induction l with
  | nil => rfl
  | cons e l ih => cases e <;> simp [repliesIn, ih]

theorem repliesIn_none {l : List Ev} (h : ∀ e ∈ l, ¬ AnyReply e) : repliesIn l = [] := by
  induction l with
  | nil => rfl
  | cons e l ih =>
    have := ih fun e' he' => h e' (List.mem_cons_of_mem _ he')
    cases e <;> simp only [repliesIn, this]
    exact absurd ⟨_, _, _, rfl⟩ (h _ List.mem_cons_self)

theorem repliesIn_all {l : List Ev} (h : ∀ e ∈ l, AnyReply e) : repliesIn l = l := by
  induction l with
  | nil => rfl
  | cons e l ih =>
    obtain ⟨c, m, wire, rfl⟩ := h e List.mem_cons_self
    simp only [repliesIn, ih fun e' he' => h e' (List.mem_cons_of_mem _ he')]

theorem mem_repliesIn {l : List Ev} {e : Ev} : e ∈ repliesIn l ↔ e ∈ l ∧ AnyReply e := by
  induction l with
  | nil => simp [repliesIn]
  | cons a l ih =>
    cases a with
    | reply c m wire =>
      simp only [repliesIn, List.mem_cons, ih]
      constructor
      · rintro (rfl | ⟨h1, h2⟩)
        · exact ⟨.inl rfl, ⟨_, _, _, rfl⟩⟩
        · exact ⟨.inr h1, h2⟩
      · rintro ⟨rfl | h1, h2⟩
        · exact .inl rfl
        · exact .inr ⟨h1, h2⟩
    | _ =>
      simp only [repliesIn, List.mem_cons, ih]
      constructor
      · rintro ⟨h1, h2⟩; exact ⟨.inr h1, h2⟩
      · rintro ⟨rfl | h1, h2⟩
        · obtain ⟨_, _, _, h⟩ := h2; cases h
        · exact ⟨h1, h2⟩

/-- Everything that happens while a typed accepted message is handled. -/
theorem dispatch_block {env : Env} (hs : Sane env) (I : Interp σ) {q : Multipart} {m : XMessage} (c : Chan) {t : Str}
    (ha : Accepted env.C env.J env.auth q m) (ht : typeOf m.body.header = some t) (w : World σ) :
    ∃ b pre rep ab fin done stuck, IsStatus env c "busy" m.body.header b ∧
      ((dispatch env I q c).run w).2.out = w.out ++ ([b] ++ (pre ++ rep ++ ab) ++ fin) ∧
      ((∀ r, ¬ IsReq m r) → pre = [] ∧ rep = []) ∧
      (∀ e ∈ pre, ∃ r, IsReq m r ∧ Inner env r (curParent m c w) e) ∧
      rep.length ≤ 1 ∧
      (∀ e ∈ rep, ∃ r rt, IsReq m r ∧ replyType r = some rt ∧ IsReply env c m.ids m.body.header (lit rt) e) ∧
      w.shellQ = done ++ stuck ++ ((dispatch env I q c).run w).2.shellQ ∧ AbortAll env done ab ∧ (stuck.length ≤ 1 ∧ ∀ q ∈ stuck, ¬ Abortable env q) ∧
      (¬ IsReq m .execute → done = [] ∧ stuck = []) ∧
      ((dispatch env I q c).run w).2.parent = curParent m c w ∧
      (¬ IsReq m .execute → ((dispatch env I q c).run w).2.count = w.count) ∧
      (∃ l, ((dispatch env I q c).run w).2.hist = w.hist ++ l ∧ (¬ IsReq m .execute → l = [])) ∧
      (∃ used, w.stdinQ = used ++ ((dispatch env I q c).run w).2.stdinQ) ∧
      ((((dispatch env I q c).run w).1 = .ok () ∧ (∃ i, fin = [i] ∧ IsStatus env c "idle" m.body.header i) ∧
          ∀ n, Ev.threw (.foreign n) ∉ pre) ∨
        (fin = [] ∧ ((∃ n es, ((dispatch env I q c).run w).1 = .exc (.foreign n) ∧ pre = es ++ [.threw (.foreign n)] ∧
            rep = [] ∧ ab = []) ∨
          (∃ s, ((dispatch env I q c).run w).1 = .ub s) ∨ ((dispatch env I q c).run w).1 = .hang ∧
            ∀ n, Ev.threw (.foreign n) ∉ pre))) := by
  obtain ⟨w₀, x, hb, hx, hcases, hexc, hpar, hfin⟩ := dispatch_parts hs I c ha ht w
  obtain ⟨b, hb1, hb2⟩ := hb.out
  have hpar₀ : w₀.parent = curParent m c w := hb.parent
  -- the state before the final notification
  have hx2 : ∃ pre rep ab done stuck, x.2.out = w.out ++ ([b] ++ (pre ++ rep ++ ab)) ∧
      ((∀ r, ¬ IsReq m r) → pre = [] ∧ rep = []) ∧
      (∀ e ∈ pre, ∃ r, IsReq m r ∧ Inner env r (curParent m c w) e) ∧ rep.length ≤ 1 ∧
      (∀ e ∈ rep, ∃ r rt, IsReq m r ∧ replyType r = some rt ∧ IsReply env c m.ids m.body.header (lit rt) e) ∧
      w.shellQ = done ++ stuck ++ x.2.shellQ ∧ AbortAll env done ab ∧ (stuck.length ≤ 1 ∧ ∀ q ∈ stuck, ¬ Abortable env q) ∧
      (¬ IsReq m .execute → done = [] ∧ stuck = []) ∧
      (¬ IsReq m .execute → x.2.count = w.count) ∧
      (∃ l, x.2.hist = w.hist ++ l ∧ (¬ IsReq m .execute → l = [])) ∧
      (∃ used, w.stdinQ = used ++ x.2.stdinQ) ∧ ForeignOk pre x.1 ∧
      (x.1 ≠ .ok () → ∀ n, x.1 = .exc (.foreign n) → rep = [] ∧ ab = []) := by
    rcases hcases with ⟨hn, rfl⟩ | ⟨r, hr, hq⟩
    · exact ⟨[], [], [], [], [], by simp [hb2], by simp, by simp, by simp, by simp, by simp [hb.shellQ], .nil, by simp,
        by simp, fun _ => hb.count, ⟨[], by simp [hb.hist], by simp⟩, ⟨[], by simp [hb.stdinQ]⟩, ⟨by simp, by simp⟩,
        by simp⟩
    · obtain ⟨pre, rep, ab, done, stuck, a1, a2, a3, a4, a5, a6, a7, a8, a9, a10⟩ := hq.out
      obtain ⟨l, hl, hl'⟩ := hq.hist
      obtain ⟨u, hu⟩ := hq.stdinQ
      have hne : ¬ IsReq m .execute → r ≠ .execute := by rintro h rfl; exact h hr
      refine ⟨pre, rep, ab, done, stuck, by rw [a1, hb2]; simp, fun h => absurd hr (h r), ?_, a3, ?_,
        by rw [← hb.shellQ, a5], a6, a7, fun h => a8 (hne h), fun h => (hq.count (hne h)).trans hb.count,
        ⟨l, by rw [hl, hb.hist], fun h => hl' (hne h)⟩, ⟨u, by rw [← hb.stdinQ, hu]⟩, a9, fun _ => a10⟩
      · intro e he
        have := (a2 e he).inner
        rw [hpar₀] at this
        exact ⟨r, hr, this⟩
      · intro e he
        obtain ⟨rt, hrt, hrep⟩ := a4 e he
        rw [hb.cur] at hrep
        exact ⟨r, rt, hr, hrt, hrep⟩
  obtain ⟨pre, rep, ab, done, stuck, e1, e2, e3, e4, e5, e6, e7, e8, e9, e10, ⟨l, e11, e12⟩, ⟨u, e13⟩, e14, e15⟩ := hx2
  rcases hfin with ⟨hok, i, hi, hrun⟩ | ⟨hnok, hrun⟩
  · rw [hrun]
    refine ⟨b, pre, rep, ab, [i], done, stuck, hb1, by simp [e1], e2, e3, e4, e5, e6, e7, e8, e9,
      by show x.2.parent = _; rw [hpar, hpar₀], e10, ⟨l, e11, e12⟩, ⟨u, e13⟩, .inl ⟨rfl, ⟨i, rfl, hi⟩, ?_⟩⟩
    intro n hn
    rcases e14.2 n hn with h | ⟨_, h⟩ <;> rw [hok] at h <;> simp at h
  · rw [hrun]
    refine ⟨b, pre, rep, ab, [], done, stuck, hb1, by simp [e1], e2, e3, e4, e5, e6, e7, e8, e9,
      by rw [hpar, hpar₀], e10, ⟨l, e11, e12⟩, ⟨u, e13⟩, .inr ⟨rfl, ?_⟩⟩
    cases hx1 : x.1 with
    | ok a => exact absurd hx1 (by simpa using hnok)
    | exc e =>
      obtain ⟨n, rfl⟩ := hexc e hx1
      obtain ⟨es, hes⟩ := e14.1 n hx1
      exact .inl ⟨n, es, rfl, hes, e15 hnok n hx1⟩
    | ub s => exact .inr (.inl ⟨s, rfl⟩)
    | hang =>
      refine .inr (.inr ⟨rfl, fun n hn => ?_⟩)
      rcases e14.2 n hn with h | ⟨_, h⟩ <;> rw [hx1] at h <;> simp at h

end Xeus
