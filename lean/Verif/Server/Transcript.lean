import Verif.Server.TranscriptSpec
import Verif.Server.AtomicProps
import Verif.Server.SplitAnswers
import Verif.Server.DuoLemmas
import Verif.KernelConc.Props
import Verif.Kernel.PropsSession
import Verif.Kernel.PropsExec

/-!
# What a running server sends: lemmas (no property statements here)
-/

namespace Xeus

open Spec K

variable {σ : Type} {env : Env} {I : Interp σ}

/-! ## Lists -/

theorem tookBy_append (t : Chan) (a b : List Act) : tookBy t (a ++ b) = tookBy t a ++ tookBy t b := by
  induction a with
  | nil => rfl
  | cons x a ih =>
    cases x with
    | took t' q => simp only [List.cons_append, tookBy, ih]; split <;> rfl
    | _ => simpa [tookBy] using ih

theorem tookBy_none {t : Chan} {l : List Act} (h : ∀ q, Act.took t q ∉ l) : tookBy t l = [] := by
  induction l with
  | nil => rfl
  | cons x l ih =>
    have ih := ih fun q hq => h q (List.mem_cons_of_mem _ hq)
    cases x with
    | took t' q =>
      have : t' ≠ t := by rintro rfl; exact h q List.mem_cons_self
      simp [tookBy, this, ih]
    | _ => simpa [tookBy] using ih

theorem eventsOf_app (t : Chan) (a b : List Act) : eventsOf t (a ++ b) = eventsOf t a ++ eventsOf t b := by
  induction a with
  | nil => rfl
  | cons x a ih =>
    cases x with
    | did t' q => simp only [List.cons_append, eventsOf, ih]; split <;> rfl
    | _ => simpa [eventsOf] using ih

theorem last_took_exists {t : Chan} {l : List Act} (h : ∃ q, Act.took t q ∈ l) :
    ∃ a q seg, l = a ++ .took t q :: seg ∧ ∀ x, Act.took t x ∉ seg := by
  induction l with
  | nil => obtain ⟨q, hq⟩ := h; cases hq
  | cons x l ih =>
    by_cases hl : ∃ q, Act.took t q ∈ l
    · obtain ⟨a, q, seg, rfl, hs⟩ := ih hl
      exact ⟨x :: a, q, seg, rfl, hs⟩
    · obtain ⟨q, hq⟩ := h
      rcases List.mem_cons.1 hq with rfl | hq
      · exact ⟨[], q, l, rfl, fun y hy => hl ⟨y, hy⟩⟩
      · exact absurd ⟨q, hq⟩ hl

/-! ## Transcripts -/

theorem Spec.Transcript.append {xs ys : List (Multipart × Chan)} {es fs : List Ev} (h : Transcript env xs es)
    (h' : Transcript env ys fs) : Transcript env (xs ++ ys) (es ++ fs) := by
  induction h with
  | nil => exact h'
  | rejected hr _ ih => exact .rejected hr ih
  | accepted ha hb _ ih => rw [List.append_assoc]; exact .accepted ha hb ih

/-- The transcript of one thread of a kernel. -/
structure Threaded (env : Env) (t : Chan) (log : List Act) : Prop where
  before : (∀ q, Act.took t q ∉ log) → eventsOf t log = []
  past : ∀ a q seg, log = a ++ .took t q :: seg → (∀ x, Act.took t x ∉ seg) →
    Transcript env ((tookBy t a).map fun q => (q, t)) (eventsOf t a)

theorem Threaded.quiet {t : Chan} {l es : List Act} (h : Threaded env t l) (hn : ∀ x, Act.took t x ∉ es)
    (he : (∀ q, Act.took t q ∉ l) → eventsOf t es = []) : Threaded env t (l ++ es) := by
  refine ⟨fun hq => ?_, fun a q seg hl hs => ?_⟩
  · have h1 : ∀ q, Act.took t q ∉ l := fun q hx => hq q (List.mem_append.2 (.inl hx))
    rw [eventsOf_app, h.before h1, he h1]; rfl
  · have hx : Act.took t q ∈ l ++ es := by rw [hl]; simp
    have hx : Act.took t q ∈ l := by
      rcases List.mem_append.1 hx with hx | hx
      · exact hx
      · exact absurd hx (hn q)
    obtain ⟨a', q', seg', rfl, hs'⟩ := last_took_exists ⟨q, hx⟩
    obtain ⟨h1, h2⟩ := last_took (t := t) (l := a' ++ .took t q' :: (seg' ++ es)) (by rw [← hl]; simp) hs rfl
      (fun x hx => by rcases List.mem_append.1 hx with hx | hx; exact hs' x hx; exact hn x hx)
    have h3 : a' = a := by
      rw [h1, h2, List.append_assoc, List.cons_append] at hl
      exact List.append_cancel_right hl
    subst h3
    exact h.past _ _ seg' rfl hs'

theorem threaded_reach {st : Start σ} {s : Conc σ} (h : CReach env I st s) (t : Chan) : Threaded env t s.log := by
  induction h with
  | start => exact ⟨fun _ => rfl, fun a q seg hl _ => by simp at hl⟩
  | @step s s' hr hs ih =>
    have hr' := hr.step hs
    have take : ∀ t' q, s'.log = s.log ++ [.took t' q] → Threaded env t s'.log := by
      intro t' q hl
      by_cases ht : t' = t
      · subst ht
        refine ⟨fun hq => absurd (by rw [hl]; simp) (hq q), fun a q' seg hl' hs' => ?_⟩
        have hal : a = s.log := by
          obtain ⟨h1, h2⟩ := last_took hl' hs' hl (by simp)
          rw [h1, h2, hl] at hl'
          exact (List.append_cancel_right hl').symm
        subst hal
        by_cases hx : ∃ q, Act.took t' q ∈ s.log
        · obtain ⟨b, q₁, seg₁, hb, hb'⟩ := last_took_exists hx
          have h2 := ih.past b q₁ seg₁ hb hb'
          have h3 := (C32_block env I st s' hr' b t' q₁ seg₁ q [] (by rw [hl, hb]) hb').1
          rw [hb, tookBy_append, eventsOf_app]
          simp only [tookBy, if_true, tookBy_none hb', eventsOf, List.map_append, List.map_cons, List.map_nil]
          refine h2.append ?_
          rcases h3 with ⟨h3, h4⟩ | ⟨m, h3, h4⟩
          · rw [h4]; exact .rejected h3 .nil
          · rw [← List.append_nil (eventsOf t' seg₁)]; exact .accepted h3 h4 .nil
        · have h1 : ∀ q, Act.took t' q ∉ s.log := fun q hq => hx ⟨q, hq⟩
          rw [tookBy_none h1, ih.before h1]
          exact .nil
      · rw [hl]
        exact ih.quiet (by intro x hx; simp at hx; exact ht hx.1.symm) fun _ => rfl
    cases hs with
    | arriveShell q => exact ih
    | arriveControl q => exact ih
    | arriveStdin q => exact ih
    | takeShell q r _ _ => exact take .shell q rfl
    | takeControl q r _ _ => exact take .control q rfl
    | act t' p w' hst =>
      refine ih.quiet ?_ ?_
      · intro x hx
        unfold entries at hx
        simp only [List.mem_append, List.mem_map] at hx
        rcases hx with ⟨_, _, hx⟩ | ⟨_, _, hx⟩ <;> cases hx
      · intro hn
        by_cases ht : t' = t
        · subst ht
          rcases (cinv_reach hr).thread t' with ⟨_, hp⟩ | ⟨a, q, seg, hl, _⟩
          · rw [hp] at hst; cases hst
          · exact absurd (by rw [hl]; simp) (hn q)
        · have : ∀ l : List Act, (∀ x ∈ l, x.thread = t') → eventsOf t l = [] := by
            intro l hl
            induction l with
            | nil => rfl
            | cons x l ih' =>
              have h2 := ih' fun y hy => hl y (List.mem_cons_of_mem _ hy)
              have h1 := hl x List.mem_cons_self
              cases x with
              | did t'' e =>
                simp only [Act.thread] at h1
                subst h1
                simp [eventsOf, ht, h2]
              | _ => simpa [eventsOf] using h2
          refine this _ fun x hx => ?_
          unfold entries at hx
          simp only [List.mem_append, List.mem_map] at hx
          rcases hx with ⟨_, _, rfl⟩ | ⟨_, _, rfl⟩ <;> rfl

theorem progress_reach {st : Start σ} {s : Conc σ} (h : CReach env I st s) (t : Chan) :
    Progress env ((tookBy t s.log).map fun q => (q, t)) (eventsOf t s.log) := by
  have ht := threaded_reach h t
  by_cases hx : ∃ q, Act.took t q ∈ s.log
  · obtain ⟨a, q, seg, hl, hn⟩ := last_took_exists hx
    have h1 := ht.past a q seg hl hn
    have h2 := (C32_in_hand env I st s h a t q seg hl hn).1
    have e1 : tookBy t s.log = tookBy t a ++ [q] := by rw [hl, tookBy_append]; simp [tookBy, tookBy_none hn]
    have e2 : eventsOf t s.log = eventsOf t a ++ eventsOf t seg := by rw [hl, eventsOf_app]; rfl
    rw [e1, e2, List.map_append]
    rcases h2 with h2 | ⟨m, hm, h2 | h2⟩
    · rw [h2, List.append_nil]; exact .started q t h1
    · exact .underway q t m _ h1 hm h2
    · refine .whole (h1.append ?_)
      rw [← List.append_nil (eventsOf t seg)]; exact .accepted hm h2 .nil
  · have h1 : ∀ q, Act.took t q ∉ s.log := fun q hq => hx ⟨q, hq⟩
    rw [tookBy_none h1, ht.before h1]
    exact .whole .nil

/-! ## Status notifications -/

theorem alternates_prefix {l l' : List (Json × Json)} (h : Alternates l) (hp : l' <+: l) : Alternates l' := by
  induction h generalizing l' with
  | nil => rw [List.prefix_nil.1 hp]; exact .nil
  | busy p =>
    cases l' with
    | nil => exact .nil
    | cons x l' =>
      obtain ⟨rfl, h⟩ := List.cons_prefix_cons.1 hp
      rw [List.prefix_nil.1 h]; exact .busy p
  | pair p _ ih =>
    cases l' with
    | nil => exact .nil
    | cons x l' =>
      obtain ⟨rfl, hq⟩ := List.cons_prefix_cons.1 hp
      cases l' with
      | nil => exact .busy p
      | cons y l' =>
        obtain ⟨rfl, hz⟩ := List.cons_prefix_cons.1 hq
        exact .pair p (ih hz)

theorem statusOf_of {c : Chan} {s : String} {p : Json} {e : Ev} (h : IsStatus env c s p e) : statusOf e = some (stateIs s, p) := by
  obtain ⟨m, wire, rfl, hh, h1, h2, _⟩ := h
  simp only [statusOf]
  rw [if_pos]
  · rw [h1, h2]; rfl
  · obtain ⟨id, date, hh⟩ := hh
    rw [hh]; exact headerOf_type ..

theorem statusOf_none {e : Ev} (h : ¬ AnyStatus e) : statusOf e = none := by
  cases e with
  | pub c m wire =>
    simp only [statusOf]
    rw [if_neg]
    exact fun hm => h ⟨c, m, wire, rfl, hm⟩
  | _ => rfl

theorem statuses_none {es : List Ev} (h : ∀ e ∈ es, ¬ AnyStatus e) : statusesIn es = [] := by
  unfold statusesIn
  rw [List.filterMap_eq_nil_iff]
  exact fun e he => statusOf_none (h e he)

theorem statusesIn_append (a b : List Ev) : statusesIn (a ++ b) = statusesIn a ++ statusesIn b := by
  simp [statusesIn]

theorem statuses_block {m : XMessage} {c : Chan} {es : List Ev} (h : Block env m c es) :
    statusesIn es = [(stateIs "busy", m.body.header), (stateIs "idle", m.body.header)] := by
  obtain ⟨b, inner, i, rfl, hb, hn, hi⟩ := h
  rw [statusesIn_append, statusesIn_append, statuses_none hn]
  simp [statusesIn, statusOf_of hb, statusOf_of hi]

theorem statuses_open {m : XMessage} {c : Chan} {es : List Ev} (h : OpenBlock env m c es) :
    statusesIn es = [(stateIs "busy", m.body.header)] := by
  obtain ⟨b, inner, rfl, hb, hn⟩ := h
  rw [statusesIn_append, statuses_none hn]
  simp [statusesIn, statusOf_of hb]

theorem alternates_transcript {xs : List (Multipart × Chan)} {es fs : List Ev} (h : Transcript env xs es)
    (hf : Alternates (statusesIn fs)) : Alternates (statusesIn (es ++ fs)) := by
  induction h with
  | nil => exact hf
  | rejected _ _ ih => exact ih
  | accepted _ hb _ ih =>
    rw [List.append_assoc, statusesIn_append, statuses_block hb]
    exact .pair _ ih

theorem alternates_progress {xs : List (Multipart × Chan)} {es : List Ev} (h : Progress env xs es) : Alternates (statusesIn es) := by
  cases h with
  | whole h => rw [← List.append_nil es]; exact alternates_transcript h .nil
  | started q c h => rw [← List.append_nil es]; exact alternates_transcript h .nil
  | underway q c m last h _ ho => exact alternates_transcript h (by rw [statuses_open ho]; exact .busy _)

/-- Status notifications go through the socket of the thread. -/
theorem status_block_socket {m : XMessage} {c : Chan} {es : List Ev} (h : Block env m c es) :
    ∀ e ∈ es, statusOf e ≠ none → throughSocket c e = true := by
  obtain ⟨b, inner, i, rfl, ⟨_, _, rfl, _⟩, hn, ⟨_, _, rfl, _⟩⟩ := h
  intro e he hs
  simp only [List.mem_append, List.mem_singleton] at he
  rcases he with (rfl | he) | rfl
  · cases c <;> rfl
  · exact absurd (statusOf_none (hn e he)) hs
  · cases c <;> rfl

theorem status_open_socket {m : XMessage} {c : Chan} {es : List Ev} (h : OpenBlock env m c es) :
    ∀ e ∈ es, statusOf e ≠ none → throughSocket c e = true := by
  obtain ⟨b, inner, rfl, ⟨_, _, rfl, _⟩, hn⟩ := h
  intro e he hs
  simp only [List.mem_append, List.mem_singleton] at he
  rcases he with rfl | he
  · cases c <;> rfl
  · exact absurd (statusOf_none (hn e he)) hs

theorem status_transcript_socket {t : Chan} {xs : List (Multipart × Chan)} {es : List Ev} (h : Transcript env xs es)
    (hc : ∀ x ∈ xs, x.2 = t) : ∀ e ∈ es, statusOf e ≠ none → throughSocket t e = true := by
  induction h with
  | nil => intro e he; cases he
  | rejected _ _ ih => exact ih fun x hx => hc x (List.mem_cons_of_mem _ hx)
  | @accepted q m c r blk es _ hb _ ih =>
    have : c = t := hc (q, c) List.mem_cons_self
    subst this
    intro e he hs
    rcases List.mem_append.1 he with he | he
    · exact status_block_socket hb e he hs
    · exact ih (fun x hx => hc x (List.mem_cons_of_mem _ hx)) e he hs

theorem status_progress_socket {t : Chan} {qs : List Multipart} {es : List Ev} (h : Progress env (qs.map fun q => (q, t)) es) :
    ∀ e ∈ es, statusOf e ≠ none → throughSocket t e = true := by
  have hall : ∀ x ∈ qs.map (fun q => (q, t)), x.2 = t := by
    intro x hx
    obtain ⟨_, _, rfl⟩ := List.mem_map.1 hx
    rfl
  generalize qs.map (fun q => (q, t)) = xs at h hall
  cases h with
  | whole h => exact status_transcript_socket h hall
  | started q c h => exact status_transcript_socket h fun x hx => hall x (List.mem_append.2 (.inl hx))
  | @underway xs es q c m last h _ ho =>
    have hc : c = t := hall (q, c) (by simp)
    subst hc
    intro e he hs
    rcases List.mem_append.1 he with he | he
    · exact status_transcript_socket h (fun x hx => hall x (List.mem_append.2 (.inl hx))) e he hs
    · exact status_open_socket ho e he hs

theorem throughSocket_unique {k t : Chan} {e : Ev} (h : throughSocket k e = true) (h' : throughSocket t e = true) : k = t := by
  cases e with
  | pub c m w => simp only [throughSocket, decide_eq_true_eq] at h h'; exact h.symm.trans h'
  | _ => cases h

/-- The status notifications through one socket are those of one thread. -/
theorem statuses_socket {k : Chan} {l : List Act}
    (h : ∀ t, ∀ e ∈ eventsOf t l, statusOf e ≠ none → throughSocket t e = true) :
    statusesIn ((allEvents l).filter (throughSocket k)) = statusesIn (eventsOf k l) := by
  induction l with
  | nil => rfl
  | cons x l ih =>
    cases x with
    | did t e =>
      have ih := ih fun t' e' he' => h t' e' (by simp only [eventsOf]; split <;> simp [he'])
      have h1 := h t e (by simp [eventsOf])
      simp only [allEvents, eventsOf]
      by_cases hst : statusOf e = none
      · have e1 : ∀ l, statusesIn (e :: l) = statusesIn l := fun l => by simp [statusesIn, hst]
        rw [List.filter_cons]
        split <;> split <;> simp only [e1, ih]
      · by_cases htk : t = k
        · subst htk
          rw [List.filter_cons, if_pos (h1 hst), if_pos rfl]
          simp only [statusesIn, List.filterMap_cons] at ih ⊢
          rw [ih]
        · have : throughSocket k e = false := by
            cases hk : throughSocket k e with
            | false => rfl
            | true => exact absurd (throughSocket_unique (h1 hst) hk) htk
          rw [List.filter_cons, if_neg (by simp [this]), if_neg htk, ih]
    | _ => exact ih fun t' e' he' => h t' e' he'

/-! ## Prefixes -/

theorem prefix_events {f : List Ev → List Multipart} {one : Ev → List Multipart}
    (hf : ∀ e r, f (e :: r) = one e ++ f r) (h0 : f [] = []) (h1 : ∀ e, (one e).length ≤ 1) {es : List Ev} {l : List Multipart} (h : l <+: f es) :
    ∃ o, o <+: es ∧ f o = l := by
  induction es generalizing l with
  | nil => rw [h0] at h; rw [List.prefix_nil.1 h]; exact ⟨[], List.prefix_refl _, h0⟩
  | cons e es ih =>
    rw [hf] at h
    cases hl : l with
    | nil => exact ⟨[], List.nil_prefix, by rw [h0]⟩
    | cons x l' =>
      rw [hl] at h
      have := h1 e
      cases ho : one e with
      | nil =>
        rw [ho, List.nil_append] at h
        obtain ⟨o, h2, h3⟩ := ih h
        exact ⟨e :: o, List.cons_prefix_cons.2 ⟨rfl, h2⟩, by rw [hf, ho, h3]; rfl⟩
      | cons y t =>
        rw [ho] at this h
        have ht : t = [] := by
          cases t with
          | nil => rfl
          | cons _ _ => simp at this
        subst ht
        obtain ⟨rfl, hq⟩ := List.cons_prefix_cons.1 h
        obtain ⟨o, h2, h3⟩ := ih hq
        exact ⟨e :: o, List.cons_prefix_cons.2 ⟨rfl, h2⟩, by rw [hf, ho, h3]; rfl⟩

theorem prefix_pubsOf {es : List Ev} {l : List Multipart} (h : l <+: pubsOf es) : ∃ o, o <+: es ∧ pubsOf o = l :=
  prefix_events (one := fun | .pub _ _ w => [w] | _ => []) (fun e r => by cases e <;> rfl) rfl (fun e => by cases e <;> simp) h

theorem prefix_pubsOn {k : Chan} {es : List Ev} {l : List Multipart} (h : l <+: pubsOn k es) : ∃ o, o <+: es ∧ pubsOn k o = l :=
  prefix_events (one := fun | .pub c _ w => if publishSocket c = k then [w] else [] | _ => [])
    (fun e r => by cases e <;> simp only [pubsOn, List.nil_append]; split <;> rfl) rfl
    (fun e => by cases e <;> simp; split <;> simp) h

/-! ## The default server -/

theorem serial_transcript (hs : Sane env) {st : Start σ} {l : List (Chan × Multipart)} {as : List Multipart} {w : World σ}
    (h : Serial env I st l as w) : Transcript env (l.map fun x => (x.2, x.1)) w.out := by
  have one : ∀ {q c} {w w' : World σ}, (dispatch env I q c).run w = (.ok (), w') →
      ∃ es, w'.out = w.out ++ es ∧ Transcript env [(q, c)] es := by
    intro q c w w' hrun
    have := C31_transcript env hs I [(q, c)] w (by simp [hrun, session])
    simpa [run_session_cons, hrun, session] using this
  induction h with
  | start => rw [st.out]; exact .nil
  | arrive A B _ ih => exact ih
  | shell q r _ _ _ hrun ih =>
    obtain ⟨es, h1, h2⟩ := one hrun
    rw [h1, List.map_append]
    exact ih.append h2
  | control q _ _ hrun ih =>
    obtain ⟨es, h1, h2⟩ := one hrun
    rw [h1, List.map_append]
    exact ih.append h2

theorem ledger_snoc (hs : Sane env) {l : List (Chan × Multipart)} {es : List Ev} {h : Hist} {q : Multipart} {c : Chan} {w w' : World σ}
    (hL : Ledger env l es h) (hp : ParentsOk w) (hc : InInt w.count) (hrun : (dispatch env I q c).run w = (.ok (), w')) :
    ∃ blk h', w'.out = w.out ++ blk ∧ w'.hist = w.hist ++ h' ∧ Ledger env (l ++ [(c, q)]) (es ++ blk) (h ++ h') := by
  rcases dispatch_trichotomy (env := env) I q c w with ⟨hr, hd⟩ | ⟨_, s, hd⟩ | ⟨m, ha⟩
  · rw [hd] at hrun
    simp only [Prod.mk.injEq, true_and] at hrun
    subst hrun
    exact ⟨[], [], by simp, by simp, by simpa using hL.refused c q hr⟩
  · rw [hd] at hrun; cases hrun
  · obtain ⟨blk, h1, h2, hb⟩ | ⟨blk, h1, _⟩ := dispatch_ok_block hs I c ha w
    · rw [hrun] at h2
      simp only at h2
      by_cases hex : IsReq m .execute ∧ ∃ f, execFields m.body.content = some f
      · obtain ⟨hr, f, hf⟩ := hex
        have hov : f.silent = false → InInt (w.count + 1) := by
          intro hsil
          by_cases h : InInt (w.count + 1)
          · exact h
          · obtain ⟨s, hub⟩ := exec_overflow hs I c ha hr hf hsil h
            rw [hrun] at hub
            cases hub
        obtain ⟨es', h3, h4⟩ := C19_execute env hs I q m c f ha hr hf w hp hc hov
        rw [hrun] at h3 h4
        simp only at h3 h4
        have he : es' = blk := List.append_cancel_left (h3.symm.trans h2)
        subst he
        rcases h4 with ⟨h4, h5⟩ | ⟨h4, h5⟩
        · by_cases hst : (f.store && !f.silent) = true
          · rw [if_pos hst] at h5
            simp only [Bool.and_eq_true, Bool.not_eq_true'] at hst
            exact ⟨es', _, h2, h5, .stored c q m es' _ hL ha hb ⟨hr, f, hf, hst.1, hst.2, rfl⟩ h4⟩
          · rw [if_neg hst] at h5
            refine ⟨es', [], h2, h5, ?_⟩
            rw [List.append_nil]
            refine .other c q m es' hL ha hb (.inl ?_)
            rintro e ⟨_, f', hf', h6, h7, _⟩
            rw [hf] at hf'
            cases hf'
            exact hst (by simp [h6, h7])
        · refine ⟨es', [], h2, by simpa using h5, ?_⟩
          rw [List.append_nil]
          exact .other c q m es' hL ha hb (.inr h4)
      · have h3 := C19_other env hs I q m c ha w (by
          by_cases hr : IsReq m .execute
          · refine .inr ?_
            cases hf : execFields m.body.content with
            | none => rfl
            | some f => exact absurd ⟨hr, f, hf⟩ hex
          · exact .inl hr)
        rw [hrun] at h3
        refine ⟨blk, [], h2, by simpa using h3, ?_⟩
        rw [List.append_nil]
        exact .other c q m blk hL ha hb (.inl fun e ⟨hr, f, hf, _⟩ => hex ⟨hr, f, hf⟩)
    · rw [hrun] at h1; exact absurd rfl h1

theorem serial_ledger (hs : Sane env) {st : Start σ} {l : List (Chan × Multipart)} {as : List Multipart} {w : World σ}
    (h : Serial env I st l as w) : ∃ h', w.hist = st.w.hist ++ h' ∧ Ledger env l w.out h' := by
  induction h with
  | start => exact ⟨[], by simp, by rw [st.out]; exact .nil⟩
  | arrive A B _ ih => exact ih
  | @shell l as w w' q r hb _ _ hrun ih =>
    obtain ⟨h', h1, h2⟩ := ih
    obtain ⟨n, hn⟩ := C17_tally_exists env (l.map fun x => (x.2, x.1))
    obtain ⟨i1, i2, _⟩ := serial_count hs hb n hn
    obtain ⟨blk, h'', h3, h4, h5⟩ := ledger_snoc (w := { w with shellQ := r }) hs h2 (show ParentsOk w from serial_parents hs hb)
      (show InInt w.count by rw [i2]; exact i1) hrun
    exact ⟨h' ++ h'', by rw [h4]; simp [h1], by rw [h3]; exact h5⟩
  | @control l as w w' q hb _ hrun ih =>
    obtain ⟨h', h1, h2⟩ := ih
    obtain ⟨n, hn⟩ := C17_tally_exists env (l.map fun x => (x.2, x.1))
    obtain ⟨i1, i2, _⟩ := serial_count hs hb n hn
    obtain ⟨blk, h'', h3, h4, h5⟩ := ledger_snoc hs h2 (serial_parents hs hb) (show InInt w.count by rw [i2]; exact i1) hrun
    exact ⟨h' ++ h'', by rw [h4, h1, List.append_assoc], by rw [h3]; exact h5⟩

namespace Main

theorem acts_reach {st : Start σ} {s : Main σ} (h : Reach env I st s) : actsIn s.log = s.c.log := by
  induction h with
  | start => rfl
  | step _ hs ih =>
    cases hs with
    | workControl _ rs p w' keep hp hs _ => simp only [Main.work, actsIn_append, actsIn_map, ih]
    | workShell _ p w' keep hp hs _ => simp only [Main.work, actsIn_append, actsIn_map, ih]
    | _ => first | exact ih | (simp only [actsIn_append, ih]; first | rfl | simp [actsIn])

/-- Only the message in hand is worked on. -/
def Sole (s : Main σ) : Prop := ∀ l₀ c q l₁, s.log = l₀ ++ .act (.took c q) :: l₁ → handledIn l₁ = [] →
  ∀ t e, SEv.act (.did t e) ∈ l₁ → t = c

theorem Sole.quiet {s s' : Main σ} (h : Sole s) (es : List SEv) (h1 : s'.log = s.log ++ es) (h2 : handledIn es = [])
    (h3 : ∀ l₀ c q l₁, s.log = l₀ ++ .act (.took c q) :: l₁ → handledIn l₁ = [] → ∀ t e, SEv.act (.did t e) ∈ es → t = c) : Sole s' := by
  intro l₀ c q l₁ hl hn t e he
  rw [h1] at hl
  obtain ⟨l', h4, rfl⟩ := took_left hl h2
  rw [handledIn_append, List.append_eq_nil_iff] at hn
  rcases List.mem_append.1 he with he | he
  · exact h l₀ c q l' h4 hn.1 t e he
  · exact h3 l₀ c q l' h4 hn.1 t e he

theorem Sole.take {s s' : Main σ} (c : Chan) (q : Multipart) (h1 : s'.log = s.log ++ [.act (.took c q)]) : Sole s' := by
  intro l₀ c' q' l₁ hl hn t e he
  obtain ⟨_, _, _, rfl⟩ := last_handled (hl.symm.trans h1) hn rfl
  cases he

theorem sole_reach {st : Start σ} {s : Main σ} (h : Reach env I st s) : Sole s := by
  induction h with
  | start => intro l₀ c q l₁ hl; simp [init] at hl
  | @step s s' _ hr hs ih =>
    have hw : ∀ (c : Chan) (p : K (World σ) Unit) (w' : World σ) (keep : List Multipart),
        ((c = .control ∧ ∃ rs, s.pc = .control rs) ∨ (c = .shell ∧ s.pc = .shell)) → Sole (s.work c p w' keep) := by
      intro c p w' keep hp
      refine ih.quiet _ rfl (handledIn_entries _ _ _) ?_
      intro l₀ c' q l₁ hl hn t e he
      have htc : t = c := by
        simp only [List.mem_map] at he
        obtain ⟨x, hx, he⟩ := he
        unfold entries at hx
        cases he
        simp only [List.mem_append, List.mem_map] at hx
        rcases hx with ⟨_, _, hx⟩ | ⟨_, _, hx⟩
        · cases hx
        · cases hx; rfl
      rw [htc]
      have key : ∀ {l q'} {m : List SEv}, s.log = l ++ .act (.took c q') :: m → handledIn m = [] → c = c' :=
        fun h1 h2 => ((last_handled (hl.symm.trans h1) hn h2).2.1).symm
      cases ainv_reach hr with
      | idle ha _ =>
        rcases hp with ⟨_, rs, hp⟩ | ⟨_, hp⟩
        · exact absurd hp (ha.1 rs)
        · exact absurd hp ha.2
      | control hp' hl' hn' =>
        rcases hp with ⟨rfl, _⟩ | ⟨_, hp⟩
        · exact key hl' hn'
        · rw [hp'] at hp; cases hp
      | shell hp' hl' hn' =>
        rcases hp with ⟨_, rs, hp⟩ | ⟨rfl, _⟩
        · rw [hp'] at hp; cases hp
        · exact key hl' hn'
    cases hs with
    | takeControl _ rs q r hp hq => exact .take .control q rfl
    | takeShell _ q r hp hq => exact .take .shell q rfl
    | workControl _ rs p w' keep hp _ _ => exact hw .control p w' keep (.inl ⟨rfl, rs, hp⟩)
    | workShell _ p w' keep hp _ _ => exact hw .shell p w' keep (.inr ⟨rfl, hp⟩)
    | _ => first
      | exact ih
      | exact ih.quiet [_] rfl rfl fun _ _ _ _ _ _ t e he => by simp at he

theorem eventsIn_sole {c : Chan} {l : List SEv} (h : ∀ t e, SEv.act (.did t e) ∈ l → t = c) :
    eventsIn l = eventsOf c (actsIn l) := by
  induction l with
  | nil => rfl
  | cons x l ih =>
    have ih := ih fun t e he => h t e (List.mem_cons_of_mem _ he)
    cases x with
    | act y =>
      cases y with
      | did t e =>
        have : t = c := h t e List.mem_cons_self
        simp [eventsIn, actsIn, eventsOf, this, ih]
      | _ => simpa [eventsIn, actsIn, eventsOf] using ih
    | _ => simpa [eventsIn, actsIn, eventsOf] using ih

theorem no_took {c : Chan} {l : List SEv} (h : handledIn l = []) : ∀ x, Act.took c x ∉ actsIn l := by
  induction l with
  | nil => intro x hx; cases hx
  | cons y l ih =>
    cases y with
    | act a =>
      cases a with
      | took t q => simp [handledIn] at h
      | _ => intro x hx; simp [actsIn] at hx; exact ih h x hx
    | _ => exact ih h

theorem main_progress (hs : Sane env) {st : Start σ} {s : Main σ} (h : Reach env I st s) :
    Progress env ((handledIn s.log).map fun x => (x.2, x.1)) (eventsIn s.log) := by
  have inHand : ∀ {c q} {l₀ l₁ : List SEv} {as w₀}, s.log = l₀ ++ .act (.took c q) :: l₁ → handledIn l₁ = [] →
      Serial env I st (handledIn l₀) as w₀ → w₀.out = eventsIn l₀ →
      Progress env ((handledIn s.log).map fun x => (x.2, x.1)) (eventsIn s.log) := by
    intro c q l₀ l₁ as w₀ hl hn hser hout
    have ht := serial_transcript hs hser
    rw [hout] at ht
    have hlog : s.c.log = actsIn l₀ ++ .took c q :: actsIn l₁ := by rw [← acts_reach h, hl, actsIn_append]; rfl
    have h2 := (C32_in_hand env I st s.c (kinv_reach h).conc _ c q _ hlog (no_took hn)).1
    rw [← eventsIn_sole (sole_reach h l₀ c q l₁ hl hn)] at h2
    have e1 : (handledIn s.log).map (fun x => (x.2, x.1)) = (handledIn l₀).map (fun x => (x.2, x.1)) ++ [(q, c)] := by
      rw [hl, handledIn_append]; simp [handledIn, hn]
    have e2 : eventsIn s.log = eventsIn l₀ ++ eventsIn l₁ := by rw [hl, eventsIn_append]; rfl
    rw [e1, e2]
    rcases h2 with h2 | ⟨m, hm, h2 | h2⟩
    · rw [h2, List.append_nil]; exact .started q c ht
    · exact .underway q c m _ ht hm h2
    · refine .whole (ht.append ?_)
      rw [← List.append_nil (eventsIn l₁)]; exact .accepted hm h2 .nil
  cases ainv_reach h with
  | idle _ hser =>
    rw [events_reach h]
    exact .whole (serial_transcript hs hser)
  | control _ hl hn hser hout => exact inHand hl hn hser hout
  | shell _ hl hn hser hout => exact inHand hl hn hser hout

end Main

/-! ## The split servers -/

theorem allEvents_append (a b : List Act) : allEvents (a ++ b) = allEvents a ++ allEvents b := by
  induction a with
  | nil => rfl
  | cons x a ih => cases x <;> simp [allEvents, ih]

theorem out_reach {st : Start σ} {s : Conc σ} (h : CReach env I st s) : allEvents s.log = s.w.out := by
  induction h with
  | start => exact st.out.symm
  | step hr hs ih =>
    cases hs with
    | act t p w' hst =>
      rw [allEvents_append, ih]
      have h1 : ∀ l : List Multipart, allEvents (l.map (Act.drained t)) = [] := by
        intro l; induction l with
        | nil => rfl
        | cons _ _ ih => simpa [allEvents] using ih
      have h2 : ∀ l : List Ev, allEvents (l.map (Act.did t)) = l := by
        intro l; induction l with
        | nil => rfl
        | cons _ _ ih => simpa [allEvents] using ih
      unfold entries
      rw [allEvents_append, h1, h2]
      exact (prefix_drop (creach_kept hr hst).1).symm
    | takeShell => rw [allEvents_append, ih]; simp [allEvents]
    | takeControl => rw [allEvents_append, ih]; simp [allEvents]
    | _ => exact ih

theorem socket_alternates {st : Start σ} {s : Conc σ} (h : CReach env I st s) (k : Chan) :
    Alternates (statusesIn (s.w.out.filter (throughSocket k))) := by
  rw [← out_reach h, statuses_socket fun t => status_progress_socket (progress_reach h t)]
  exact alternates_progress (progress_reach h k)

theorem prefix_filter {α β : Type} {p : α → Bool} {f : α → Option β} {a b : List α} (h : a <+: b) :
    (a.filter p).filterMap f <+: (b.filter p).filterMap f := by
  obtain ⟨c, rfl⟩ := h
  rw [List.filter_append, List.filterMap_append]
  exact List.prefix_append _ _

end Xeus
