import Verif.Server.GatherSpec
import Verif.Server.TranscriptProps

/-!
# What a client gathers about its request: lemmas
-/

namespace Xeus

open Spec

variable {σ : Type} {env : Env} {I : Interp σ}

/-! ## Idle notifications -/

theorem Spec.Progress.prepend {xs ys : List (Multipart × Chan)} {es fs : List Ev} (h : Transcript env xs es) (h' : Progress env ys fs) :
    Progress env (xs ++ ys) (es ++ fs) := by
  cases h' with
  | whole h' => exact .whole (h.append h')
  | started q c h' => rw [← List.append_assoc]; exact .started q c (h.append h')
  | underway q c m last h' ha ho =>
    rw [← List.append_assoc, ← List.append_assoc]
    exact .underway q c m last (h.append h') ha ho

theorem idle_ne_busy : stateIs "idle" ≠ stateIs "busy" := by decide +kernel

theorem statuses_prefix {a b : List Ev} (h : a <+: b) : statusesIn a <+: statusesIn b := by
  obtain ⟨c, rfl⟩ := h
  rw [statusesIn_append]
  exact List.prefix_append _ _

theorem no_idle_open {m : XMessage} {c : Chan} {es o : List Ev} {h : Json} (ho : OpenBlock env m c es) (hp : o <+: es) :
    (stateIs "idle", h) ∉ statusesIn o := by
  intro hm
  have := (statuses_prefix hp).subset hm
  rw [statuses_open ho] at this
  simp only [List.mem_singleton, Prod.mk.injEq] at this
  exact idle_ne_busy this.1

theorem no_idle_block {m : XMessage} {c : Chan} {es o : List Ev} {h : Json} (hb : Block env m c es) (hp : o <+: es) (hne : o ≠ es) :
    (stateIs "idle", h) ∉ statusesIn o := by
  obtain ⟨b, inner, i, rfl, h1, h2, h3⟩ := hb
  rcases List.prefix_concat_iff.1 hp with h4 | h4
  · exact absurd h4 hne
  · exact no_idle_open (env := env) (m := m) (c := c) ⟨b, inner, rfl, h1, h2⟩ h4

theorem prefix_cases {a b o : List Ev} (h : o <+: a ++ b) : (o <+: a ∧ o ≠ a) ∨ ∃ o', o = a ++ o' ∧ o' <+: b := by
  rcases List.prefix_or_prefix_of_prefix h (List.prefix_append a b) with h1 | ⟨o', rfl⟩
  · by_cases h2 : o = a
    · exact .inr ⟨[], by simp [h2], List.nil_prefix⟩
    · exact .inl ⟨h1, h2⟩
  · exact .inr ⟨o', rfl, (List.prefix_append_right_inj a).1 h⟩

theorem concluded_transcript {xs ys : List (Multipart × Chan)} {es fs o : List Ev} {h : Json} (ht : Transcript env xs es) (hp : Progress env ys fs)
    (ho : o <+: es ++ fs) (hi : (stateIs "idle", h) ∈ statusesIn o) :
    Concluded env (xs ++ ys) (es ++ fs) o h ∨ ∃ o', o = es ++ o' ∧ o' <+: fs ∧ (stateIs "idle", h) ∈ statusesIn o' := by
  induction ht generalizing o with
  | nil => exact .inr ⟨o, rfl, ho, hi⟩
  | @rejected q c r es hr _ ih =>
    rcases ih ho hi with ⟨a, q', c', b, m, es₁, blk, es₂, h1, h2, h3, h4, h5, h6, h7, h8⟩ | h
    · exact .inl ⟨(q, c) :: a, q', c', b, m, es₁, blk, es₂, by rw [List.cons_append, h1]; rfl, h2, h3, h4, .rejected hr h5, h6, h7, h8⟩
    · exact .inr h
  | @accepted q m c r blk es ha hb hr ih =>
    rw [List.append_assoc] at ho
    rcases prefix_cases ho with ⟨h1, h2⟩ | ⟨o', rfl, ho'⟩
    · exact absurd hi (no_idle_block hb h1 h2)
    · by_cases hh : m.body.header = h
      · exact .inl ⟨[], q, c, r ++ ys, m, [], blk, es ++ fs, rfl, ha, hh, by simp, .nil, hb, hp.prepend hr, List.prefix_append _ _⟩
      · rw [statusesIn_append, statuses_block hb] at hi
        have hi' : (stateIs "idle", h) ∈ statusesIn o' := by
          simp only [List.cons_append, List.nil_append, List.mem_cons, Prod.mk.injEq] at hi
          rcases hi with ⟨hi, _⟩ | ⟨_, hi⟩ | hi
          · exact absurd hi idle_ne_busy
          · exact absurd hi.symm hh
          · exact hi
        rcases ih ho' hi' with ⟨a, q', c', b, m', es₁, blk', es₂, h1, h2, h3, h4, h5, h6, h7, h8⟩ | ⟨o'', h1, h2, h3⟩
        · refine .inl ⟨(q, c) :: a, q', c', b, m', blk ++ es₁, blk', es₂, by rw [List.cons_append, h1]; rfl, h2, h3, ?_, .accepted ha hb h5, h6, h7, ?_⟩
          · rw [List.append_assoc, h4]; simp
          · rw [List.append_assoc]
            exact (List.prefix_append_right_inj blk).2 h8
        · exact .inr ⟨o'', by rw [h1, List.append_assoc], h2, h3⟩

theorem concluded_progress {xs : List (Multipart × Chan)} {es o : List Ev} {h : Json} (hp : Progress env xs es) (ho : o <+: es)
    (hi : (stateIs "idle", h) ∈ statusesIn o) : Concluded env xs es o h := by
  have nope : ∀ {o' : List Ev}, o' <+: [] → (stateIs "idle", h) ∉ statusesIn o' := by
    intro o' h1 h2
    rw [List.prefix_nil.1 h1] at h2
    cases h2
  cases hp with
  | whole ht =>
    rcases concluded_transcript ht (.whole .nil) (by simpa using ho) hi with h1 | ⟨o', _, h2, h3⟩
    · simpa using h1
    · exact absurd h3 (nope h2)
  | started q c ht =>
    rcases concluded_transcript ht (.started (xs := []) q c .nil) (by simpa using ho) hi with h1 | ⟨o', _, h2, h3⟩
    · simpa using h1
    · exact absurd h3 (nope h2)
  | underway q c m last ht ha hop =>
    rcases concluded_transcript ht (.underway (xs := []) q c m last .nil ha hop) (by simpa using ho) hi with h1 | ⟨o', _, h2, h3⟩
    · simpa using h1
    · exact absurd h3 (no_idle_open hop (by simpa using h2))

/-! ## The threads of a split server -/

theorem prefix_acts {l : List Act} {o : List Ev} (h : o <+: allEvents l) : ∃ l', l' <+: l ∧ allEvents l' = o := by
  induction l generalizing o with
  | nil => exact ⟨[], List.prefix_refl _, (List.prefix_nil.1 h).symm⟩
  | cons x l ih =>
    cases x with
    | did t e =>
      cases o with
      | nil => exact ⟨[], List.nil_prefix, rfl⟩
      | cons e' o =>
        obtain ⟨rfl, h'⟩ := List.cons_prefix_cons.1 h
        obtain ⟨l', h1, h2⟩ := ih h'
        exact ⟨.did t e' :: l', List.cons_prefix_cons.2 ⟨rfl, h1⟩, by rw [allEvents, h2]⟩
    | _ =>
      obtain ⟨l', h1, h2⟩ := ih h
      exact ⟨_ :: l', List.cons_prefix_cons.2 ⟨rfl, h1⟩, h2⟩

theorem eventsOf_prefix {t : Chan} {l' l : List Act} (h : l' <+: l) : eventsOf t l' <+: eventsOf t l := by
  obtain ⟨r, rfl⟩ := h
  rw [eventsOf_append]
  exact List.prefix_append _ _

/-! ## Attribution -/

theorem status_parent {c : Chan} {s : String} {h : Json} {e : Ev} (hs : IsStatus env c s h e) : ∃ p w, e = .pub c p w ∧ p.body.parent = h := by
  obtain ⟨p, w, rfl, _, h1, _⟩ := hs
  exact ⟨p, w, rfl, h1⟩

theorem credited_snoc {hs' : List (Chan × Multipart)} {lat : Chan → Json} {es : List Ev} {q : Multipart} {c : Chan} (hs : Sane env) {w w' : World σ}
    (h : Credited env hs' lat es) (hl : ∀ c, (w.parent c).header = lat c) (hrun : (dispatch env I q c).run w = (.ok (), w')) :
    ∃ lat' es', (∀ c, (w'.parent c).header = lat' c) ∧ w'.out = w.out ++ es' ∧ Credited env (hs' ++ [(c, q)]) lat' (es ++ es') := by
  rcases dispatch_trichotomy (env := env) I q c w with ⟨hr, h1⟩ | ⟨_, s, h1⟩ | ⟨m, ha⟩
  · rw [h1] at hrun
    cases hrun
    exact ⟨lat, [], hl, by simp, by simpa using Credited.refused c q h hr⟩
  · rw [h1] at hrun; cases hrun
  · cases ht : typeOf m.body.header with
    | none =>
      obtain ⟨w₀, _, hr⟩ := untyped hs I c ha w ht
      rw [hr] at hrun
      cases hrun
    | some t =>
      obtain ⟨b, pre, rep, ab, fin, done, stuck, hb, ho, _, hpre, _, hrep, _, hab, _, _, hpar, _, _, _, hfin⟩ := dispatch_block hs I c ha ht w
      rw [hrun] at ho hpar hfin
      rcases hfin with ⟨_, ⟨i, rfl, hi⟩, _⟩ | ⟨_, ⟨_, _, h1, _⟩ | ⟨_, h1⟩ | ⟨h1, _⟩⟩
      · refine ⟨fun c' => if c' = c then m.body.header else lat c', _, ?_, ho, ?_⟩
        · intro c'
          show (w'.parent c').header = _
          simp only at hpar
          rw [hpar]
          simp only [curParent]
          split
          · rfl
          · exact hl c'
        · have hinner : ∀ e ∈ pre ++ rep ++ ab, (∃ r, IsReq m r ∧ Inner env r (curParent m c w) e) ∨ AnyReply e := by
            intro e he
            simp only [List.mem_append] at he
            rcases he with (he | he) | he
            · exact .inl (hpre e he)
            · obtain ⟨_, _, _, _, h1⟩ := hrep e he
              exact .inr (isReply_any h1)
            · exact .inr (abortAll_reply hab e he)
          refine .handled c q m b _ i h ha hb hi ?_ ?_
          · intro e he
            rcases hinner e he with ⟨r, _, h1⟩ | h1
            · exact inner_not_status h1
            · exact anyReply_not_status h1
          · rintro e he c' p wire rfl
            rcases hinner _ he with ⟨r, hr, h1⟩ | ⟨_, _, _, h1⟩
            · rcases h1 with (⟨_, _, _, h2, _, _, h3⟩ | ⟨_, _, h2, _⟩) | ⟨_, _, _, h2, h4, _, h3⟩ | ⟨_, h2, _⟩ | ⟨_, h2⟩ | ⟨h2, _⟩
              · cases h2
                refine ⟨?_, by simp⟩
                rw [h3]
                unfold curParent
                split
                · rfl
                · exact hl _
              · cases h2
              · cases h2
                refine ⟨?_, fun _ => ?_⟩
                · rw [h3]
                  unfold curParent
                  split
                  · rfl
                  · exact hl _
                · rcases h4 with ⟨rfl, _⟩ | ⟨rfl, _⟩
                  · exact .inl hr
                  · exact .inr hr
              all_goals cases h2
            · cases h1
      all_goals cases h1

theorem serial_credited (hs : Sane env) {st : Start σ} {l : List (Chan × Multipart)} {as : List Multipart} {w : World σ}
    (h : Serial env I st l as w) : ∃ lat, (∀ c, (w.parent c).header = lat c) ∧ Credited env l lat w.out := by
  induction h with
  | start => exact ⟨fun _ => .obj [], fun c => by rw [st.parent], by rw [st.out]; exact .nil⟩
  | arrive A B _ ih => exact ih
  | @shell l as w w' q r _ _ _ hrun ih =>
    obtain ⟨lat, h1, h2⟩ := ih
    obtain ⟨lat', es', h3, h4, h5⟩ := credited_snoc (w := { w with shellQ := r }) hs h2 h1 hrun
    exact ⟨lat', h3, by rw [h4]; exact h5⟩
  | @control l as w w' q _ _ hrun ih =>
    obtain ⟨lat, h1, h2⟩ := ih
    obtain ⟨lat', es', h3, h4, h5⟩ := credited_snoc hs h2 h1 hrun
    exact ⟨lat', h3, by rw [h4]; exact h5⟩

theorem credited_last {xs : List (Chan × Multipart)} {c : Chan} {q : Multipart} {lat : Chan → Json} {es : List Ev}
    (h : Credited env (xs ++ [(c, q)]) lat es) :
    (Refused env.C env.J env.auth q ∧ Credited env xs lat es) ∨
    ∃ lat₀ es₀ m b inner i, Credited env xs lat₀ es₀ ∧ Accepted env.C env.J env.auth q m ∧ IsStatus env c "busy" m.body.header b ∧
      IsStatus env c "idle" m.body.header i ∧ (∀ e ∈ inner, ¬ AnyStatus e) ∧
      (∀ e ∈ inner, ∀ c' p wire, e = .pub c' p wire →
        p.body.parent = (if c' = c then m.body.header else lat₀ c') ∧ (c' = .control → IsReq m .shutdown ∨ IsReq m .interrupt)) ∧
      lat = (fun c' => if c' = c then m.body.header else lat₀ c') ∧ es = es₀ ++ ([b] ++ inner ++ [i]) := by
  generalize hx : xs ++ [(c, q)] = ys at h
  cases h with
  | nil => simp at hx
  | refused c' q' h1 h2 =>
    obtain ⟨rfl, h3⟩ := List.append_inj' hx rfl
    cases h3
    exact .inl ⟨h2, h1⟩
  | handled c' q' m b inner i h1 h2 h3 h4 h5 h6 =>
    obtain ⟨rfl, h7⟩ := List.append_inj' hx rfl
    cases h7
    exact .inr ⟨_, _, m, b, inner, i, h1, h2, h3, h4, h5, h6, rfl, rfl⟩

theorem credited_transcript {xs : List (Chan × Multipart)} {lat : Chan → Json} {es : List Ev} (h : Credited env xs lat es) :
    Transcript env (xs.map fun x => (x.2, x.1)) es := by
  induction h with
  | nil => exact .nil
  | refused c q _ hr ih =>
    rw [List.map_append]
    simpa using ih.append (.rejected (c := c) hr .nil)
  | handled c q m b inner i _ ha hb hi h1 _ ih =>
    rw [List.map_append]
    refine ih.append ?_
    rw [← List.append_nil ([b] ++ inner ++ [i])]
    exact .accepted ha ⟨b, inner, i, rfl, hb, h1, hi⟩ .nil

theorem about_append (h : Json) (a b : List Ev) : about h (a ++ b) = about h a ++ about h b := List.filter_append ..

theorem about_nil {h : Json} {es : List Ev} (hn : ∀ e ∈ es, ∀ c p wire, e = .pub c p wire → p.body.parent ≠ h) : about h es = [] := by
  unfold about
  rw [List.filter_eq_nil_iff]
  intro e he
  cases e with
  | pub c p wire => simpa using hn _ he c p wire rfl
  | _ => simp

theorem about_all {h : Json} {es : List Ev} (hn : ∀ e ∈ es, ∀ c p wire, e = .pub c p wire → p.body.parent = h) : about h es = published es := by
  unfold about published
  apply List.filter_congr
  intro e he
  cases e with
  | pub c p wire => simpa using hn _ he c p wire rfl
  | _ => rfl

/-- Nothing names a header that no message had. -/
theorem credited_before {xs : List (Chan × Multipart)} {lat : Chan → Json} {es : List Ev} (h : Credited env xs lat es) {hd : Json}
    (h0 : hd ≠ .obj []) (hu : ∀ x ∈ xs, ¬ HasHeader env hd x.2) : (∀ c, lat c ≠ hd) ∧ about hd es = [] := by
  induction h with
  | nil => exact ⟨fun _ => h0.symm, rfl⟩
  | refused c q _ _ ih => exact ih fun x hx => hu x (List.mem_append.2 (.inl hx))
  | @handled xs lat es c q m b inner i _ ha hb hi h1 h2 ih =>
    obtain ⟨i1, i2⟩ := ih fun x hx => hu x (List.mem_append.2 (.inl hx))
    have hm : m.body.header ≠ hd := fun he => hu (c, q) (by simp) ⟨m, ha, he⟩
    refine ⟨fun c' => ?_, ?_⟩
    · simp only
      split
      · exact hm
      · exact i1 c'
    · rw [about_append, i2, List.nil_append]
      apply about_nil
      rintro e he c' p wire rfl
      simp only [List.mem_append, List.mem_singleton] at he
      rcases he with (rfl | he) | rfl
      · obtain ⟨_, _, h3, h4⟩ := status_parent hb
        cases h3
        rwa [h4]
      · rw [(h2 _ he c' p wire rfl).1]
        split
        · exact hm
        · exact i1 c'
      · obtain ⟨_, _, h3, h4⟩ := status_parent hi
        cases h3
        rwa [h4]

theorem about_on {h : Json} {c : Chan} {es : List Ev} (hn : ∀ e ∈ es, ∀ c' p wire, e = .pub c' p wire → (p.body.parent = h ↔ c' = c)) :
    about h es = publishedOn c es := by
  unfold about publishedOn
  apply List.filter_congr
  intro e he
  cases e with
  | pub c' p wire => simpa using hn _ he c' p wire rfl
  | _ => rfl

theorem on_all {c : Chan} {es : List Ev} (hn : ∀ e ∈ es, ∀ c' p wire, e = .pub c' p wire → c' = c) : publishedOn c es = published es := by
  unfold publishedOn published
  apply List.filter_congr
  intro e he
  cases e with
  | pub c' p wire => simpa using hn _ he c' p wire rfl
  | _ => rfl

theorem credited_gather {a b : List (Chan × Multipart)} {c : Chan} {q : Multipart} {m : XMessage} {lat : Chan → Json} {es : List Ev}
    (h : Credited env (a ++ (c, q) :: b) lat es) (ha : Accepted env.C env.J env.auth q m) (h0 : m.body.header ≠ .obj [])
    (hu : ∀ x ∈ a ++ b, ¬ HasHeader env m.body.header x.2) (hb : Undisturbed env c b) :
    (∀ c', c' ≠ c → lat c' ≠ m.body.header) ∧ ((∃ x ∈ b, x.1 = c ∧ ∃ m', Accepted env.C env.J env.auth x.2 m') → lat c ≠ m.body.header) ∧
    ∃ es₁ blk es₂, es = es₁ ++ blk ++ es₂ ∧ Transcript env (a.map fun x => (x.2, x.1)) es₁ ∧ Block env m c blk ∧
      Transcript env (b.map fun x => (x.2, x.1)) es₂ ∧ about m.body.header es = publishedOn c blk ∧
      (c = .shell → ¬ IsReq m .shutdown → ¬ IsReq m .interrupt → publishedOn c blk = published blk) := by
  have hx : ∃ b', b.reverse = b' := ⟨_, rfl⟩
  obtain ⟨b', hx⟩ := hx
  induction b' generalizing b lat es with
  | nil =>
    have hx : b = [] := by simpa using hx
    subst hx
    rcases credited_last h with ⟨h1, _⟩ | ⟨lat₀, es₀, m', x, inner, i, h1, h2, h3, h4, h5, h6, rfl, rfl⟩
    · exact absurd ha (fun h => accepted_not_refused h h1)
    · cases accepted_unique ha h2
      obtain ⟨i1, i2⟩ := credited_before h1 h0 fun x hx => hu x (List.mem_append.2 (.inl hx))
      refine ⟨fun c' hc => ?_, by simp, es₀, [x] ++ inner ++ [i], [], by simp, credited_transcript h1, ⟨x, inner, i, rfl, h3, h5, h4⟩, .nil, ?_, ?_⟩
      · simp only [if_neg hc]; exact i1 c'
      · rw [about_append, i2, List.nil_append]
        apply about_on
        rintro e he c' p wire rfl
        simp only [List.mem_append, List.mem_singleton] at he
        rcases he with (rfl | he) | rfl
        · obtain ⟨_, _, h7, h8⟩ := status_parent h3
          cases h7
          exact ⟨fun _ => rfl, fun _ => h8⟩
        · rw [(h6 _ he c' p wire rfl).1]
          split
          · rename_i hc; exact ⟨fun _ => hc, fun _ => rfl⟩
          · rename_i hc; exact ⟨fun h => absurd h (i1 c'), fun h => absurd h hc⟩
        · obtain ⟨_, _, h7, h8⟩ := status_parent h4
          cases h7
          exact ⟨fun _ => rfl, fun _ => h8⟩
      · rintro rfl hn1 hn2
        apply on_all
        rintro e he c' p wire rfl
        simp only [List.mem_append, List.mem_singleton] at he
        rcases he with (rfl | he) | rfl
        · obtain ⟨_, _, h7, _⟩ := status_parent h3
          cases h7
          rfl
        · have := (h6 _ he c' p wire rfl).2
          cases c' with
          | shell => rfl
          | control => rcases this rfl with h | h <;> contradiction
        · obtain ⟨_, _, h7, _⟩ := status_parent h4
          cases h7
          rfl
  | cons y b' ih =>
    have hx : b = b'.reverse ++ [y] := by rw [← List.reverse_reverse b, hx, List.reverse_cons]
    obtain ⟨cy, qy⟩ := y
    generalize hr : b'.reverse = b₁ at hx
    subst hx
    have hr' : b₁.reverse = b' := by rw [← hr, List.reverse_reverse]
    have hu' : ∀ x ∈ a ++ b₁, ¬ HasHeader env m.body.header x.2 := by
      intro x hx
      apply hu x
      simp only [List.mem_append] at hx ⊢
      rcases hx with hx | hx
      · exact .inl hx
      · exact .inr (.inl hx)
    have hb' : Undisturbed env c b₁ := by
      intro l c' q' r m' h1 h2 h3 h4
      exact hb l c' q' (r ++ [(cy, qy)]) m' (by rw [h1]; simp) h2 h3 h4
    have hh : Credited env ((a ++ (c, q) :: b₁) ++ [(cy, qy)]) lat es := by simpa using h
    rcases credited_last hh with ⟨h1, h2⟩ | ⟨lat₀, es₀, m', x, inner, i, h1, h2, h3, h4, h5, h6, rfl, rfl⟩
    · obtain ⟨i1, i2, es₁, blk, es₂, i3, i4, i5, i6, i7, i8⟩ := ih h2 hu' hb' hr'
      refine ⟨i1, ?_, es₁, blk, es₂, i3, i4, i5, ?_, i7, i8⟩
      · rintro ⟨x, hx, hc, m', hm⟩
        rcases List.mem_append.1 hx with hx | hx
        · exact i2 ⟨x, hx, hc, m', hm⟩
        · cases List.mem_singleton.1 hx
          exact absurd hm (fun h => accepted_not_refused h h1)
      · rw [List.map_append, ← List.append_nil es₂]
        exact i6.append (.rejected h1 .nil)
    · obtain ⟨i1, i2, es₁, blk, es₂, i3, i4, i5, i6, i7, i8⟩ := ih h1 hu' hb' hr'
      have hm : m'.body.header ≠ m.body.header := fun he => hu (cy, qy) (by simp) ⟨m', h2, he⟩
      refine ⟨fun c' hc => ?_, ?_, es₁, blk, es₂ ++ ([x] ++ inner ++ [i]), by rw [i3]; simp, i4, i5, ?_, ?_, i8⟩
      · simp only
        split
        · exact hm
        · exact i1 c' hc
      · rintro ⟨z, hz, hc, m'', hm''⟩
        simp only
        split
        · exact hm
        · rename_i hne
          apply i2
          rcases List.mem_append.1 hz with hz | hz
          · exact ⟨z, hz, hc, m'', hm''⟩
          · cases List.mem_singleton.1 hz
            exact absurd hc.symm hne
      · rw [List.map_append]
        refine i6.append ?_
        rw [← List.append_nil ([x] ++ inner ++ [i])]
        exact .accepted h2 ⟨x, inner, i, rfl, h3, h5, h4⟩ .nil
      · rw [about_append, i7, about_nil, List.append_nil]
        rintro e he c' p wire rfl
        simp only [List.mem_append, List.mem_singleton] at he
        rcases he with (rfl | he) | rfl
        · obtain ⟨_, _, h7, h8⟩ := status_parent h3
          cases h7
          rwa [h8]
        · obtain ⟨h7, h8⟩ := h6 _ he c' p wire rfl
          rw [h7]
          split
          · exact hm
          · rename_i hne
            by_cases hc : c' = c
            · subst hc
              exact i2 (hb b₁ cy qy [] m' rfl (fun h => hne h.symm) h2 h8)
            · exact i1 c' hc
        · obtain ⟨_, _, h7, h8⟩ := status_parent h4
          cases h7
          rwa [h8]

end Xeus
