import Verif.Debugger.Runs

/-!
# The debugger: the records over whole histories
-/

namespace Xeus.Dbg

open Xeus Spec K

variable {σ : Type} {d : Debugger σ}

/-! ## Events -/

theorem threadId_ok {m : Json} {t : Int} :
    threadId m = .ok t ↔ ∃ v, At m [lit "body", lit "threadId"] v ∧ v.getInt = .ok t := by
  simp only [threadId, Res.bind_eq_ok, cidx_ok, at_cons, at_nil]
  constructor
  · rintro ⟨a, ha, b, hb, hc⟩; exact ⟨b, ⟨a, ha, b, hb, rfl⟩, hc⟩
  · rintro ⟨v, ⟨a, ha, b, hb, rfl⟩, hc⟩; exact ⟨a, ha, _, hb, hc⟩

theorem lits_ne₃ : lit "stopped" ≠ lit "continued" := by decide +kernel

theorem handler_events (hd : Extends d) :
    d.eventHandler (lit "continued") = some .continued ∧ d.eventHandler (lit "stopped") = some .stopped := by
  have e (name : Str) : ({ d with events := [] } : Debugger σ).eventHandler name =
      (([(lit "continued", .continued), (lit "stopped", .stopped)] : List (Str × EvHandler σ)).reverse.find?
        fun r => decide (r.1 = name)).map fun r => r.2 := by
    unfold Debugger.eventHandler Debugger.allEvents
    rw [List.append_nil]
  rw [eventHandler_builtin hd (by simp [builtinEvents]), eventHandler_builtin hd (by simp [builtinEvents]), e, e]
  constructor <;> simp [lits_ne₃]

/-- What an event does to the records. -/
theorem event_records (hd : Extends d) {m : Json} {s s' : State σ} {r : Except Exc Json} {b : Bool}
    (h : (runCall d (.event m)).attempt.run s = (.ok r, s')) :
    s'.breakpoints = s.breakpoints ∧ s'.started = s.started ∧ Grow d s s' ∧
    ((∃ t, Tells (lit "stopped") ⟨.event m, b, r⟩ t ∧ (∀ t', ¬ Tells (lit "continued") ⟨.event m, b, r⟩ t') ∧
        s'.threads = insertThread t s.threads) ∨
      (∃ t, Tells (lit "continued") ⟨.event m, b, r⟩ t ∧ (∀ t', ¬ Tells (lit "stopped") ⟨.event m, b, r⟩ t') ∧
        s'.threads = s.threads.filter fun x => decide (x ≠ t)) ∨
      ((∀ t, ¬ Tells (lit "stopped") ⟨.event m, b, r⟩ t ∧ ¬ Tells (lit "continued") ⟨.event m, b, r⟩ t) ∧
        s'.threads = s.threads)) := by
  have hname {name : Str} {t : Int} (ht : Tells name ⟨.event m, b, r⟩ t) :
      (do let e ← m.cidx (lit "event"); e.getStr : Res Str) = .ok name ∧ threadId m = .ok t := by
    obtain ⟨m', v, he, hn, hv, hi⟩ := ht
    cases he
    refine ⟨?_, threadId_ok.2 ⟨v, hv, hi⟩⟩
    obtain ⟨w, hw, hn⟩ := at_cons.1 hn
    rw [at_nil] at hn
    subst hn
    rw [Res.bind_eq_ok]
    exact ⟨_, cidx_ok.2 hw, rfl⟩
  have htells {name : Str} {t : Int} (hn : (do let e ← m.cidx (lit "event"); e.getStr : Res Str) = .ok name)
      (ht : threadId m = .ok t) : Tells name ⟨.event m, b, r⟩ t := by
    obtain ⟨e, he, hg⟩ := Res.bind_eq_ok.1 hn
    obtain ⟨v, hv, hi⟩ := threadId_ok.1 ht
    rw [getStr_ok] at hg
    subst hg
    exact ⟨m, v, rfl, .member (cidx_ok.1 he) .here, hv, hi⟩
  simp only [run_attempt, runCall, run_bind, run_pure, handleEvent, run_ofRes] at h
  generalize hev : (do let e ← m.cidx (lit "event"); e.getStr : Res Str) = ev at h hname htells
  cases ev with
  | ub w => simp at h
  | hang => simp at h
  | exc e =>
    simp only [andThen_exc, captured_exc, Prod.mk.injEq, Res.ok.injEq] at h
    obtain ⟨_, rfl⟩ := h
    exact ⟨rfl, rfl, fun _ _ _ h => h, .inr (.inr ⟨fun t => ⟨fun hc => (by cases (hname hc).1), fun hc => (by cases (hname hc).1)⟩, rfl⟩)⟩
  | ok name =>
    simp only [andThen_ok] at h
    by_cases hn : name ∈ builtinEvents
    · have hcases : name = lit "continued" ∨ name = lit "stopped" := by simpa [builtinEvents] using hn
      cases ht : threadId m with
      | ub w =>
        rcases hcases with rfl | rfl
        · simp [(handler_events hd).1, runEvent, runEvHandler, continuedEvent, ht] at h
        · simp [(handler_events hd).2, runEvent, runEvHandler, stoppedEvent, ht] at h
      | hang =>
        rcases hcases with rfl | rfl
        · simp [(handler_events hd).1, runEvent, runEvHandler, continuedEvent, ht] at h
        · simp [(handler_events hd).2, runEvent, runEvHandler, stoppedEvent, ht] at h
      | exc e =>
        have hs : s' = s := by
          rcases hcases with rfl | rfl
          · simp [(handler_events hd).1, runEvent, runEvHandler, continuedEvent, ht] at h
            exact h.2.symm
          · simp [(handler_events hd).2, runEvent, runEvHandler, stoppedEvent, ht] at h
            exact h.2.symm
        subst hs
        refine ⟨rfl, rfl, fun _ _ _ h => h, .inr (.inr ⟨fun t => ⟨fun hc => ?_, fun hc => ?_⟩, rfl⟩)⟩
        · have := (hname hc).2; rw [ht] at this; cases this
        · have := (hname hc).2; rw [ht] at this; cases this
      | ok t =>
        rcases hcases with rfl | rfl
        · simp only [(handler_events hd).1, runEvent, runEvHandler, continuedEvent, ht, run_bind, run_ofRes, andThen_ok,
            run_modify, captured_ok, Prod.mk.injEq, Res.ok.injEq] at h
          obtain ⟨_, rfl⟩ := h
          refine ⟨rfl, rfl, fun _ _ _ h => h, .inr (.inl ⟨t, htells rfl ht, fun t' hc => ?_, rfl⟩)⟩
          exact lits_ne₃ (Res.ok.inj (hname hc).1).symm
        · simp only [(handler_events hd).2, runEvent, runEvHandler, stoppedEvent, ht, run_bind, run_ofRes, andThen_ok,
            run_modify, captured_ok, Prod.mk.injEq, Res.ok.injEq] at h
          obtain ⟨_, rfl⟩ := h
          refine ⟨rfl, rfl, fun _ _ _ h => h, .inl ⟨t, htells rfl ht, fun t' hc => ?_, rfl⟩⟩
          exact lits_ne₃ (Res.ok.inj (hname hc).1)
    · have hnone (t : Int) : ¬ Tells (lit "stopped") ⟨.event m, b, r⟩ t ∧ ¬ Tells (lit "continued") ⟨.event m, b, r⟩ t := by
        refine ⟨fun hc => hn ?_, fun hc => hn ?_⟩
        · cases (hname hc).1; simp [builtinEvents]
        · cases (hname hc).1; simp [builtinEvents]
      have heff : Eff d ⟨false, false, true⟩ s s' := by
        cases hh : d.eventHandler name with
        | none =>
          simp [hh, runEvent] at h
          rw [← h.2]
          exact (eff_pre d _).refl s
        | some h' =>
          have := eff_event_other hd hh hn m s
          rw [hh] at h
          simp only [runEvent] at h
          rcases hx : (runEvHandler d m h').run s with ⟨rx, sx⟩
          rw [hx] at h this
          cases rx <;> simp at h <;> (rw [← h.2]; exact this)
      exact ⟨heff.bps rfl, heff.started, heff.files, .inr (.inr ⟨hnone, heff.thr rfl⟩)⟩

/-! ## Sorted maps and sets -/

theorem lookup_erase (k k' : Str) (l : List (Str × Json)) :
    Json.lookup k (eraseSource k' l) = if k = k' then none else Json.lookup k l := by
  induction l with
  | nil => simp [eraseSource, Json.lookup]
  | cons x xs ih =>
    obtain ⟨kx, vx⟩ := x
    have e : eraseSource k' ((kx, vx) :: xs) = if kx ≠ k' then (kx, vx) :: eraseSource k' xs else eraseSource k' xs := by
      simp only [eraseSource, List.filter_cons, decide_eq_true_eq]
    rw [e]
    by_cases h : kx = k'
    · subst h
      simp only [ne_eq, not_true_eq_false, if_false, ih, Json.lookup]
      by_cases hk : k = kx
      · simp [hk]
      · simp [hk, Ne.symm hk]
    · simp only [ne_eq, h, not_false_eq_true, if_true, Json.lookup]
      by_cases hk : kx = k
      · subst hk; simp [h]
      · simp [hk, ih]

/-- Sorted by source. -/
def SortedBy (l : List (Str × Json)) : Prop := l.Pairwise fun a b => strLt a.1 b.1 = true

theorem sorted_erase {k : Str} {l : List (Str × Json)} (h : SortedBy l) : SortedBy (eraseSource k l) :=
  List.Pairwise.filter _ h

theorem mem_insertKV {k : Str} {v : Json} {l : List (Str × Json)} {x : Str × Json} (h : x ∈ Json.insertKV k v l) :
    x = (k, v) ∨ x ∈ l := by
  induction l with
  | nil => simp [Json.insertKV] at h; exact .inl h
  | cons y ys ih =>
    obtain ⟨ky, vy⟩ := y
    simp only [Json.insertKV] at h
    split at h
    · rcases List.mem_cons.1 h with h | h
      · exact .inl h
      · exact .inr (List.mem_cons_of_mem _ h)
    · split at h
      · rcases List.mem_cons.1 h with h | h
        · exact .inl h
        · exact .inr h
      · rcases List.mem_cons.1 h with h | h
        · exact .inr (h ▸ List.mem_cons_self)
        · rcases ih h with h | h
          · exact .inl h
          · exact .inr (List.mem_cons_of_mem _ h)

theorem sorted_insertKV {k : Str} {v : Json} {l : List (Str × Json)} (h : SortedBy l) : SortedBy (Json.insertKV k v l) := by
  induction l with
  | nil => simp [Json.insertKV, SortedBy]
  | cons y ys ih =>
    obtain ⟨ky, vy⟩ := y
    unfold SortedBy at h
    rw [List.pairwise_cons] at h
    simp only [Json.insertKV]
    split
    · rename_i hk
      subst hk
      exact List.pairwise_cons.2 ⟨h.1, h.2⟩
    · split
      · rename_i hk hlt
        refine List.pairwise_cons.2 ⟨fun x hx => ?_, List.pairwise_cons.2 h⟩
        rcases List.mem_cons.1 hx with rfl | hx
        · exact hlt
        · exact strLt_trans hlt (h.1 x hx)
      · rename_i hk hlt
        refine List.pairwise_cons.2 ⟨fun x hx => ?_, ih h.2⟩
        rcases mem_insertKV hx with rfl | hx
        · exact strLt_total hk (by simpa using hlt)
        · exact h.1 x hx

theorem mem_iff_lookup {l : List (Str × Json)} (h : SortedBy l) (k : Str) (v : Json) :
    (k, v) ∈ l ↔ Json.lookup k l = some v := by
  induction l with
  | nil => simp [Json.lookup]
  | cons y ys ih =>
    obtain ⟨ky, vy⟩ := y
    unfold SortedBy at h
    rw [List.pairwise_cons] at h
    simp only [Json.lookup]
    split
    · rename_i hk
      subst hk
      constructor
      · intro hm
        rcases List.mem_cons.1 hm with hm | hm
        · simp at hm; simp [hm]
        · have := h.1 _ hm
          rw [strLt_irrefl] at this
          cases this
      · intro hm
        cases hm
        exact List.mem_cons_self
    · rename_i hk
      rw [← ih h.2, List.mem_cons]
      constructor
      · rintro (hm | hm)
        · cases hm; exact absurd rfl hk
        · exact hm
      · exact .inr

theorem mem_insertThread {t x : Int} {l : List Int} : x ∈ insertThread t l ↔ x = t ∨ x ∈ l := by
  induction l with
  | nil => simp [insertThread]
  | cons y ys ih =>
    simp only [insertThread]
    split
    · rename_i h; subst h; simp
    · split
      · simp
      · simp only [List.mem_cons, ih]
        constructor
        · rintro (h | h | h) <;> simp [h]
        · rintro (h | h | h) <;> simp [h]

theorem sorted_insertThread {t : Int} {l : List Int} (h : l.Pairwise (· < ·)) : (insertThread t l).Pairwise (· < ·) := by
  induction l with
  | nil => simp [insertThread]
  | cons y ys ih =>
    rw [List.pairwise_cons] at h
    simp only [insertThread]
    split
    · exact List.pairwise_cons.2 h
    · split
      · rename_i _ hlt
        refine List.pairwise_cons.2 ⟨fun x hx => ?_, List.pairwise_cons.2 h⟩
        rcases List.mem_cons.1 hx with rfl | hx
        · exact hlt
        · have := h.1 x hx; omega
      · refine List.pairwise_cons.2 ⟨fun x hx => ?_, ih h.2⟩
        rcases mem_insertThread.1 hx with rfl | hx
        · omega
        · exact h.1 x hx

/-! ## Histories -/

/-- A last occurrence in a list with one more element. -/
theorem last_snoc {α : Type} (P Q : α → Prop) (l : List α) (x : α) :
    (∃ pre st post, l ++ [x] = pre ++ st :: post ∧ P st ∧ ∀ y ∈ post, Q y) ↔
      P x ∨ (Q x ∧ ∃ pre st post, l = pre ++ st :: post ∧ P st ∧ ∀ y ∈ post, Q y) := by
  constructor
  · rintro ⟨pre, st, post, he, hp, hq⟩
    rcases List.eq_nil_or_concat post with rfl | ⟨post', z, rfl⟩
    · have := List.append_inj' he rfl
      left
      have h2 : x = st := by simpa using this.2
      exact h2 ▸ hp
    · right
      rw [List.concat_eq_append] at he hq
      have he' : l ++ [x] = (pre ++ st :: post') ++ [z] := by simpa using he
      have := List.append_inj' he' rfl
      have h2 : x = z := by simpa using this.2
      refine ⟨h2 ▸ hq z (by simp), pre, st, post', this.1, hp, fun y hy => hq y (by simp [hy])⟩
  · rintro (hp | ⟨hq, pre, st, post, rfl, hp, hq'⟩)
    · exact ⟨l, x, [], rfl, hp, by simp⟩
    · refine ⟨pre, st, post ++ [x], by simp, hp, fun y hy => ?_⟩
      rcases List.mem_append.1 hy with hy | hy
      · exact hq' y hy
      · rw [List.mem_singleton.1 hy]; exact hq

theorem lastSet_snoc (J : Codec) (l : List Step) (x : Step) (src : Str) (bs : List Json) :
    LastSet J (l ++ [x]) src bs ↔ Sets J x src bs ∨ ((¬ Clears x ∧ ∀ l', ¬ Sets J x src l') ∧ LastSet J l src bs) :=
  last_snoc _ _ _ _

theorem lastStopped_snoc (l : List Step) (x : Step) (t : Int) :
    LastStopped (l ++ [x]) t ↔
      Tells (lit "stopped") x t ∨ ((¬ Clears x ∧ ¬ Tells (lit "continued") x t) ∧ LastStopped l t) :=
  last_snoc _ _ _ _

theorem sets_unique {J : Codec} {st : Step} {src src' : Str} {l l' : List Json} (h : Sets J st src l)
    (h' : Sets J st src' l') : src = src' ∧ l = l' := by
  obtain ⟨_, _, m, v, hc, _, _, hp, hb, hl⟩ := h
  obtain ⟨_, _, m', v', hc', _, _, hp', hb', hl'⟩ := h'
  rw [hc] at hc'
  cases hc'
  cases at_unique hp hp'
  cases at_unique hb hb'
  exact ⟨rfl, (listed_unique hl).trans (listed_unique hl').symm⟩

theorem tells_unique {name : Str} {st : Step} {t t' : Int} (h : Tells name st t) (h' : Tells name st t') : t = t' := by
  obtain ⟨m, v, hc, _, hv, ht⟩ := h
  obtain ⟨m', v', hc', _, hv', ht'⟩ := h'
  rw [hc] at hc'
  cases hc'
  cases at_unique hv hv'
  rw [ht] at ht'
  exact Res.ok.inj ht'

/-- A running debugger stays so, except for a disconnection. -/
theorem initPart_started (m command : Json) {s : State σ} (h : s.started = true) :
    (initPart d m command).run s = (.ok (.obj []), s) := by
  unfold initPart
  split
  · simp only [run_bind, run_read, andThen_ok, h, if_true, run_pure]
  · simp only [run_pure]

theorem handler_started (m : Json) (h : Handler σ) (s : State σ) : ((runHandler d m h).run s).2.started = s.started :=
  (eff_handler m h s).started

theorem dispatch_started (header m reply : Json) (name : Str) :
    Keeps (fun s s' : State σ => s'.started = s.started) (dispatch d header m reply name (d.requestHandler false name)) := by
  have hp : Pre (fun s s' : State σ => s'.started = s.started) := ⟨fun _ => rfl, fun h h' => h'.trans h⟩
  cases d.requestHandler false name with
  | some h => exact handler_started m h
  | none =>
    refine Keeps.bind hp (Keeps.read hp _) fun b => ?_
    cases b
    · exact Keeps.pure hp _
    · refine Keeps.bind hp (fun s => (eff_sendHeader (d := d) (F := ⟨true, true, true⟩) rfl header s).started) fun _ => ?_
      cases d.requestHandler true name with
      | some h => exact handler_started m h
      | none => exact fun s => (eff_forward (d := d) (F := ⟨true, true, true⟩) rfl m s).started

theorem body_started (header m command : Json) {s : State σ} (h : s.started = true) :
    ((body d header m command).run s).2.started = true := by
  unfold body
  rw [run_bind, initPart_started m command h, andThen_ok, run_bind, run_ofRes]
  cases command.getStr with
  | ok name => rw [andThen_ok]; exact (dispatch_started header m _ name s).trans h
  | exc e => simpa using h
  | ub w => simpa using h
  | hang => simpa using h

theorem request_started {header m : Json} {s s' : State σ} {r : Except Exc Json}
    (h : (processRequest d header m).attempt.run s = (.ok r, s')) (hs : s.started = true)
    (hc : ¬ Clears ⟨.request header m, s.started, r⟩) : s'.started = true := by
  rw [run_attempt, run_processRequest] at h
  cases hcm : m.cidx (lit "command") with
  | ub w => simp [hcm] at h
  | hang => simp [hcm] at h
  | exc e => simp [hcm] at h; rw [← h.2]; exact hs
  | ok c =>
    have hb := body_started (d := d) header m c hs
    rcases hx : (body d header m c).run s with ⟨rb, s₁⟩
    rw [hx] at hb
    simp only [hcm, andThen_ok, hx] at h
    cases rb with
    | ub w => simp at h
    | hang => simp at h
    | exc e => simp at h; rw [← h.2]; exact hb
    | ok reply =>
      simp only [andThen_ok] at h
      by_cases hd : c = .str (lit "disconnect")
      · subst hd
        have hdis : isText (.str (lit "disconnect")) "disconnect" = true := by simp [isText]
        simp only [disconnectPart, hdis, if_true, run_bind, run_modify, andThen_ok] at h
        rcases hq : (callStop d).run s₁ with ⟨rq, s₂⟩
        rw [hq] at h
        cases rq with
        | ub w => simp at h
        | hang => simp at h
        | exc e =>
          simp at h
          rw [← h.2]
          simp only [callStop, run_lift] at hq
          split at hq <;> cases hq
          exact hb
        | ok u =>
          simp at h
          exact absurd ⟨header, m, reply, rfl, (text_command hcm).2 rfl, h.1.symm⟩ hc
      · have hdis : isText c "disconnect" = false := by simp [isText, hd]
        simp only [disconnect_other hdis, andThen_ok, captured_ok, Prod.mk.injEq, Res.ok.injEq] at h
        rw [← h.2]
        exact hb

/-- The invariant of the records. -/
structure RecordsInv (d : Debugger σ) (steps : List Step) (s : State σ) : Prop where
  sorted : SortedBy s.breakpoints
  arrays : ∀ k v, (k, v) ∈ s.breakpoints → ∃ l, v = .arr l
  bps : ∀ src l, Json.lookup src s.breakpoints = some (.arr l) ↔ LastSet d.J steps src l
  thrSorted : s.threads.Pairwise (· < ·)
  thr : ∀ t, t ∈ s.threads ↔ LastStopped steps t
  idle : s.started = false → s.breakpoints = []

theorem hist_records (hd : Extends d) {st : σ} {files : Str → Option Str} {replies acks : List Str} {steps : List Step}
    {s : State σ} (h : Hist d (initial st files replies acks) steps s) : RecordsInv d steps s := by
  induction h with
  | nil =>
    refine ⟨.nil, by simp [initial], fun src l => ?_, .nil, fun t => ?_, fun _ => rfl⟩
    · constructor
      · simp [initial, Json.lookup]
      · rintro ⟨pre, st, post, he, _⟩
        simp at he
    · constructor
      · simp [initial]
      · rintro ⟨pre, st, post, he, _⟩
        simp at he
  | @snoc l s c r s' hl hrun ih =>
    cases c with
    | event m =>
      have noClear : ¬ Clears ⟨.event m, s.started, r⟩ := by
        rintro ⟨_, _, _, he, _⟩; cases he
      have noSets (src : Str) (bs : List Json) : ¬ Sets d.J ⟨.event m, s.started, r⟩ src bs := by
        rintro ⟨_, _, _, _, he, _⟩; cases he
      obtain ⟨hb, hst, hg, hcases⟩ := event_records hd (b := s.started) hrun
      refine ⟨hb ▸ ih.sorted, hb ▸ ih.arrays, fun src bs => ?_, ?_, fun t => ?_, fun h => ?_⟩
      · rw [hb, lastSet_snoc, ih.bps]
        constructor
        · exact fun h => .inr ⟨⟨noClear, fun _ => noSets _ _⟩, h⟩
        · rintro (h | ⟨_, h⟩)
          · exact absurd h (noSets _ _)
          · exact h
      · rcases hcases with ⟨t, _, _, ht⟩ | ⟨t, _, _, ht⟩ | ⟨_, ht⟩
        · rw [ht]; exact sorted_insertThread ih.thrSorted
        · rw [ht]; exact ih.thrSorted.filter _
        · rw [ht]; exact ih.thrSorted
      · rw [lastStopped_snoc, ← ih.thr]
        rcases hcases with ⟨t', htell, hno, ht⟩ | ⟨t', htell, hno, ht⟩ | ⟨hno, ht⟩
        · rw [ht, mem_insertThread]
          constructor
          · rintro (rfl | h)
            · exact .inl htell
            · exact .inr ⟨⟨noClear, hno _⟩, h⟩
          · rintro (h | ⟨_, h⟩)
            · exact .inl (tells_unique h htell)
            · exact .inr h
        · rw [ht, List.mem_filter, decide_eq_true_eq]
          constructor
          · rintro ⟨h, hne⟩
            exact .inr ⟨⟨noClear, fun hc => hne (tells_unique hc htell)⟩, h⟩
          · rintro (h | ⟨⟨_, h'⟩, h⟩)
            · exact absurd h (hno _)
            · exact ⟨h, fun he => h' (he ▸ htell)⟩
        · rw [ht]
          constructor
          · exact fun h => .inr ⟨⟨noClear, (hno t).2⟩, h⟩
          · rintro (h | ⟨_, h⟩)
            · exact absurd h (hno t).1
            · exact h
      · rw [hst] at h
        rw [hb]
        exact ih.idle h
    | request header m =>
      have noTells (name : Str) (t : Int) : ¬ Tells name ⟨.request header m, s.started, r⟩ t := by
        rintro ⟨_, _, he, _⟩; cases he
      have hrun' : (processRequest d header m).attempt.run s = (.ok r, s') := hrun
      rcases request_records hd hrun' with ⟨hcl, hb, ht, hs⟩ | ⟨hcl, ht, hcase⟩
      · refine ⟨by rw [hb]; exact .nil, by rw [hb]; simp, fun src bs => ?_, by rw [ht]; exact .nil, fun t => ?_, fun _ => hb⟩
        · rw [hb, lastSet_snoc]
          constructor
          · simp [Json.lookup]
          · rintro (h | ⟨⟨h, _⟩, _⟩)
            · obtain ⟨_, m', _, he, hd', _⟩ := hcl
              obtain ⟨_, _, m'', _, he', _, hc', _⟩ := h
              cases he; cases he'
              have := at_unique hd' hc'
              simp only [Json.str.injEq] at this
              exact absurd this lits_ne₂.2.2.2
            · exact absurd hcl h
        · rw [ht, lastStopped_snoc]
          constructor
          · simp
          · rintro (h | ⟨⟨h, _⟩, _⟩)
            · exact absurd h (noTells _ _)
            · exact absurd hcl h
      · have thr' (t : Int) : t ∈ s'.threads ↔ LastStopped (l ++ [⟨.request header m, s.started, r⟩]) t := by
          rw [ht, lastStopped_snoc, ih.thr]
          constructor
          · exact fun h => .inr ⟨⟨hcl, noTells _ _⟩, h⟩
          · rintro (h | ⟨_, h⟩)
            · exact absurd h (noTells _ _)
            · exact h
        have idle' : s'.started = false → s.started = false := by
          intro h
          cases hs : s.started with
          | false => rfl
          | true => rw [request_started hrun' hs hcl] at h; cases h
        rcases hcase with ⟨src, bs, hset, hb⟩ | ⟨hno, hb⟩
        · refine ⟨hb ▸ sorted_insertKV (sorted_erase ih.sorted), fun k v hm => ?_, fun src' bs' => ?_,
            ht ▸ ih.thrSorted, thr', fun h => ?_⟩
          · rw [hb] at hm
            rcases mem_insertKV hm with hm | hm
            · cases hm; exact ⟨_, rfl⟩
            · exact ih.arrays k v (List.mem_filter.1 hm).1
          · rw [hb, Json.lookup_insertKV, lookup_erase, lastSet_snoc]
            by_cases hk : src' = src
            · subst hk
              simp only [if_true, Option.some.injEq, Json.arr.injEq]
              constructor
              · rintro rfl; exact .inl hset
              · rintro (h | ⟨⟨_, h⟩, _⟩)
                · exact (sets_unique hset h).2
                · exact absurd hset (h _)
            · simp only [hk, if_false, Ne.symm hk]
              rw [ih.bps]
              constructor
              · exact fun h => .inr ⟨⟨hcl, fun _ hc => hk (sets_unique hc hset).1⟩, h⟩
              · rintro (h | ⟨_, h⟩)
                · exact absurd (sets_unique h hset).1 hk
                · exact h
          · have := hset.1
            rw [idle' h] at this
            cases this
        · refine ⟨hb ▸ ih.sorted, hb ▸ ih.arrays, fun src' bs' => ?_, ht ▸ ih.thrSorted, thr', fun h => ?_⟩
          · rw [hb, lastSet_snoc, ih.bps]
            constructor
            · exact fun h => .inr ⟨⟨hcl, fun _ => hno _ _⟩, h⟩
            · rintro (h | ⟨_, h⟩)
              · exact absurd h (hno _ _)
              · exact h
          · rw [hb]; exact ih.idle (idle' h)

end Xeus.Dbg
