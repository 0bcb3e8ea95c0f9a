import Verif.Kernels.WholeSpec
import Verif.Kernels.SessionProps
import Verif.Kernels.Queries
import Verif.History.Props

/-!
# Everything the kernels that come with the library do: lemmas
-/

namespace Xeus

open Spec Kernels

variable {env : Env}

/-! ## The history -/

/-- The result is a value or an exception. -/
def Res.toAnswer : Res Json → Option (Option Json)
  | .ok j => some (some j)
  | .exc _ => some none
  | _ => none

theorem clean_no_exc {α : Type} [DecidableEq α] (l : List α) (n : Int) (u : Bool) (e : Exc) : cleanHistory l n u ≠ .exc e := by
  unfold cleanHistory
  have h1 : ∀ a b e, intSub a b ≠ .exc e := by intro a b e; unfold intSub; split <;> simp
  have h2 : ∀ a b e, nextPos a b ≠ .exc e := by intro a b e; unfold nextPos; split <;> simp
  intro h
  simp only at h
  cases hk : intSub (wrap32 (if u = true then stdUnique l else l).length) n with
  | ok k =>
    rw [hk, Res.bind_ok] at h
    split at h
    · cases hk : nextPos (if u = true then stdUnique l else l).length k with
      | ok k => rw [hk] at h; cases h
      | exc e => exact h2 _ _ _ hk
      | _ => rw [hk] at h; cases h
    · cases h
  | exc e => exact h1 _ _ _ hk
  | _ => rw [hk] at h; cases h

theorem search_exc {R : RegexLib} (hR : LawfulRegex R) {h : Hist} {p : Str} {raw output : Bool} {n : Int} {unique : Bool} {e : Exc}
    (hx : search R h p raw output n unique = .exc e) : 92 ∈ p ∨ 0 ∈ p := by
  by_cases h1 : 92 ∈ p
  · exact .inl h1
  by_cases h2 : 0 ∈ p
  · exact .inr h2
  exfalso
  obtain ⟨_, _, _, _, h0⟩ := C43_search R hR [] p raw output 0 unique h1 h2 (by decide) (by decide) (by decide)
  unfold search at h0 hx
  simp only at h0 hx
  rcases hR.total (globToRegex (sanitize p)) with ⟨f, hf⟩ | hf
  · rw [hf] at hx
    simp only [Res.bind_ok] at hx
    cases hc : cleanHistory ((h.filter fun e => f (cStr e.input)).map (projEntry output)) n unique with
    | exc e => exact clean_no_exc _ _ _ _ hc
    | _ => rw [hc] at hx; cases hx
  · rw [hf] at h0
    cases h0

theorem history_answer {R : RegexLib} (hR : LawfulRegex R) {h : Hist} (hl : (h.length : Int) ≤ intMax) (c : Json) {r : Option Json}
    (hx : (historyRequest (inMemory R) h c).toAnswer = some r) : HistAnswer h c r := by
  cases ho : c.isObj with
  | false =>
    rw [C45_refused (inMemory R) h c (.inl ho)] at hx
    cases hx
    exact .bad (.inl ho)
  | true =>
  rcases str_cases ho "hist_access_type" "tail" with ⟨a, ha, va⟩ | ⟨ha, va⟩
  rotate_left
  · rw [C45_refused (inMemory R) h c (.inr ha)] at hx
    cases hx
    exact .bad (.inr (.inl ha))
  have n1 : ¬ lit "tail" = lit "search" := by decide
  have n2 : ¬ lit "tail" = lit "range" := by decide
  have n3 : ¬ lit "search" = lit "tail" := by decide
  have n4 : ¬ lit "search" = lit "range" := by decide
  have n5 : ¬ lit "range" = lit "tail" := by decide
  have n6 : ¬ lit "range" = lit "search" := by decide
  by_cases e1 : a = lit "tail"
  · subst e1
    simp only [historyRequest, inMemory] at hx
    rw [va] at hx
    simp only [Res.bind_ok, if_true, n1, n2, if_false] at hx
    rcases int_cases ho "n" 10 with ⟨n, f1, v1⟩ | ⟨f1, v1 | ⟨_, s, v1⟩⟩
    rotate_left
    · rw [v1] at hx; cases hx; exact .bad (.inr (.inr (.inl ⟨ha, .inl f1⟩)))
    · rw [v1] at hx; cases hx
    rcases bool_cases ho "raw" true with ⟨raw, f2, v2⟩ | ⟨f2, v2⟩
    rotate_left
    · rw [v1, Res.bind_ok, v2] at hx; cases hx; exact .bad (.inr (.inr (.inl ⟨ha, .inr (.inl f2)⟩)))
    rcases bool_cases ho "output" false with ⟨output, f3, v3⟩ | ⟨f3, v3⟩
    rotate_left
    · rw [v1, Res.bind_ok, v2, Res.bind_ok, v3] at hx; cases hx; exact .bad (.inr (.inr (.inl ⟨ha, .inr (.inr f3)⟩)))
    rw [v1, Res.bind_ok, v2, Res.bind_ok, v3, Res.bind_ok] at hx
    by_cases hn : 0 ≤ n
    · rw [C41_tail h n raw output hl hn] at hx
      cases hx
      exact .tail n raw output ho ha f1 f2 f3 hn
    · obtain ⟨w, hw⟩ := (C46_tail_ub h n raw output hl).2 (by omega)
      rw [hw] at hx
      cases hx
  by_cases e2 : a = lit "search"
  · subst e2
    simp only [historyRequest, inMemory] at hx
    rw [va] at hx
    simp only [Res.bind_ok, if_true, n3, n4, if_false] at hx
    rcases str_cases ho "pattern" "*" with ⟨p, f0, v0⟩ | ⟨f0, v0⟩
    rotate_left
    · rw [v0] at hx; cases hx; exact .bad (.inr (.inr (.inr (.inl ⟨ha, .inl f0⟩))))
    rw [v0, Res.bind_ok] at hx
    rcases bool_cases ho "raw" true with ⟨raw, f2, v2⟩ | ⟨f2, v2⟩
    rotate_left
    · rw [v2] at hx; cases hx; exact .bad (.inr (.inr (.inr (.inl ⟨ha, .inr (.inl f2)⟩))))
    rw [v2, Res.bind_ok] at hx
    rcases bool_cases ho "output" false with ⟨output, f3, v3⟩ | ⟨f3, v3⟩
    rotate_left
    · rw [v3] at hx; cases hx; exact .bad (.inr (.inr (.inr (.inl ⟨ha, .inr (.inr (.inl f3))⟩))))
    rw [v3, Res.bind_ok] at hx
    rcases int_cases ho "n" 10 with ⟨n, f1, v1⟩ | ⟨f1, v1 | ⟨_, s, v1⟩⟩
    rotate_left
    · rw [v1] at hx; cases hx; exact .bad (.inr (.inr (.inr (.inl ⟨ha, .inr (.inr (.inr (.inl f1)))⟩))))
    · rw [v1] at hx; cases hx
    rw [v1, Res.bind_ok] at hx
    rcases bool_cases ho "unique" false with ⟨unique, f4, v4⟩ | ⟨f4, v4⟩
    rotate_left
    · rw [v4] at hx; cases hx; exact .bad (.inr (.inr (.inr (.inl ⟨ha, .inr (.inr (.inr (.inr f4)))⟩))))
    rw [v4, Res.bind_ok] at hx
    have hi := intField_range (by decide) f1
    cases hq : search R h p raw output n unique with
    | exc e =>
      rw [hq] at hx
      cases hx
      exact .noPattern p ho ha f0 (search_exc hR hq)
    | ub w => rw [hq] at hx; cases hx
    | hang => rw [hq] at hx; cases hx
    | ok j =>
      rw [hq] at hx
      cases hx
      have hn : 0 ≤ n := by
        rcases Int.lt_or_le n 0 with hn | hn
        · obtain ⟨w, hw⟩ := (C46_search_ub R hR h p raw output n unique hl hi).2 ⟨hn, by rw [hq]; simp⟩
          rw [hw] at hq
          cases hq
        · exact hn
      by_cases hp : 92 ∈ p ∨ 0 ∈ p
      · rcases C43_search_any R hR h p raw output n unique hl hn hi with h1 | ⟨sel, rows, h1, h2⟩
        · rw [h1] at hq; cases hq
        · rw [h2] at hq
          cases hq
          exact .search p n raw output unique (fun e => sel (e.input.takeWhile (· ≠ 0))) rows ho ha f0 f2 f3 f1 f4 hn
            (fun g1 g2 => absurd hp (by simp [g1, g2])) h1
      · obtain ⟨sel, rows, h0, h1, h2⟩ := C43_search R hR h p raw output n unique (fun g => hp (.inl g)) (fun g => hp (.inr g)) hl hn hi
        rw [h2] at hq
        cases hq
        exact .search p n raw output unique sel rows ho ha f0 f2 f3 f1 f4 hn (fun _ _ => h0) h1
  by_cases e3 : a = lit "range"
  · subst e3
    simp only [historyRequest, inMemory] at hx
    rw [va] at hx
    simp only [Res.bind_ok, if_true, n5, n6, if_false] at hx
    rcases int_cases ho "session" 0 with ⟨session, f0, v0⟩ | ⟨f0, v0 | ⟨_, s, v0⟩⟩
    rotate_left
    · rw [v0] at hx; cases hx; exact .bad (.inr (.inr (.inr (.inr ⟨ha, .inl f0⟩))))
    · rw [v0] at hx; cases hx
    rw [v0, Res.bind_ok] at hx
    rcases int_cases ho "start" 1 with ⟨start, f1, v1⟩ | ⟨f1, v1 | ⟨_, s, v1⟩⟩
    rotate_left
    · rw [v1] at hx; cases hx; exact .bad (.inr (.inr (.inr (.inr ⟨ha, .inr (.inl f1)⟩))))
    · rw [v1] at hx; cases hx
    rw [v1, Res.bind_ok] at hx
    rcases int_cases ho "stop" 10 with ⟨stop, f2, v2⟩ | ⟨f2, v2 | ⟨_, s, v2⟩⟩
    rotate_left
    · rw [v2] at hx; cases hx; exact .bad (.inr (.inr (.inr (.inr ⟨ha, .inr (.inr (.inl f2))⟩))))
    · rw [v2] at hx; cases hx
    rw [v2, Res.bind_ok] at hx
    rcases bool_cases ho "raw" true with ⟨raw, f3, v3⟩ | ⟨f3, v3⟩
    rotate_left
    · rw [v3] at hx; cases hx; exact .bad (.inr (.inr (.inr (.inr ⟨ha, .inr (.inr (.inr (.inl f3)))⟩))))
    rw [v3, Res.bind_ok] at hx
    rcases bool_cases ho "output" false with ⟨output, f4, v4⟩ | ⟨f4, v4⟩
    rotate_left
    · rw [v4] at hx; cases hx; exact .bad (.inr (.inr (.inr (.inr ⟨ha, .inr (.inr (.inr (.inr f4)))⟩))))
    rw [v4, Res.bind_ok] at hx
    by_cases hs : stop < start ∨ (h.length : Int) < start
    · obtain ⟨j, hj, he⟩ := C42_range_error h session start stop raw output hl hs
      rw [hj] at hx
      cases hx
      exact .outside session start stop raw output _ ho ha f0 f1 f2 f3 f4 hs he
    · by_cases h0 : 0 ≤ start
      · rw [C42_range h session start stop raw output hl h0 (by omega) (by omega)] at hx
        cases hx
        exact .range session start stop raw output ho ha f0 f1 f2 f3 f4 h0 (by omega) (by omega)
      · obtain ⟨w, hw⟩ := (C46_range_ub h session start stop raw output hl).2 ⟨by omega, by omega⟩
        rw [hw] at hx
        cases hx
  · rw [C45_other (inMemory R) h c a ho ha ⟨e1, e2, e3⟩] at hx
    cases hx
    exact .other a ho ha e1 e2 e3

/-! ## One message -/

/-- The interpreter has this persona. -/
structure Embodies (env : Env) (I : Interp Unit) (P : Persona) : Prop where
  execute : ∀ q m c w, Accepted env.C env.J env.auth q m → IsReq m .execute → ∀ f, execFields m.body.content = some f → ParentsOk w →
    InInt w.count → (f.silent = false → InInt (w.count + 1)) → ∃ pre, ExecAnnounce env m c w f pre ∧
      Talks env m c w pre (execCall w f) (P.says (execCount w f) f.code) "execute_reply" (P.answers (execCount w f) f.code) (execCount w f)
        (execEntries f) ((dispatch env I q c).run w)
  complete : ∀ q m c w, Accepted env.C env.J env.auth q m → IsReq m .complete → ∀ code pos, completeFields m.body.content = some (code, pos) →
    Talks env m c w [] (.complete code pos) [] "complete_reply" (P.completes code pos) w.count [] ((dispatch env I q c).run w)
  inspect : ∀ q m c w, Accepted env.C env.J env.auth q m → IsReq m .inspect → ∀ code pos detail,
    inspectFields m.body.content = some (code, pos, detail) →
    Talks env m c w [] (.inspect code pos detail) [] "inspect_reply" (P.inspects code) w.count [] ((dispatch env I q c).run w)
  isComplete : ∀ q m c w, Accepted env.C env.J env.auth q m → IsReq m .isComplete → ∀ code, codeField m.body.content = some code →
    Talks env m c w [] (.isComplete code) [] "is_complete_reply" (P.judges code) w.count [] ((dispatch env I q c).run w)
  info : ∀ q m c w, Accepted env.C env.J env.auth q m → IsReq m .kernelInfo →
    Talks env m c w [] .kernelInfo [] "kernel_info_reply" P.info w.count [] ((dispatch env I q c).run w)
  shutdown : I.shutdown = .ret ()
  target : ∀ cb a m, I.target cb a m = .ret ()
  debug : I.debug = none

theorem demo_embodies (hs : Sane env) : Embodies env demo demoPersona :=
  ⟨fun q m c w ha hr f hf => C95_demo_execute env hs q m c ha w hr f hf, fun q m c w ha hr code pos hf => C95_demo_complete env hs q m c ha w hr code pos hf,
    fun q m c w ha hr code pos d hf => C95_demo_inspect env hs q m c ha w hr code pos d hf,
    fun q m c w ha hr code hf => C95_demo_is_complete env hs q m c ha w hr code hf, fun q m c w ha hr => C95_demo_info env hs q m c ha w hr,
    rfl, fun _ _ _ => rfl, rfl⟩

theorem test_embodies (hs : Sane env) : Embodies env testing testPersona :=
  ⟨fun q m c w ha hr f hf => C95_test_execute env hs q m c ha w hr f hf, fun q m c w ha hr code pos hf => C95_test_complete env hs q m c ha w hr code pos hf,
    fun q m c w ha hr code pos d hf => C95_test_inspect env hs q m c ha w hr code pos d hf,
    fun q m c w ha hr code hf => C95_test_is_complete env hs q m c ha w hr code hf, fun q m c w ha hr => C95_test_info env hs q m c ha w hr,
    rfl, fun _ _ _ => rfl, rfl⟩

/-- The comms of a kernel that has just these targets, and no comm. -/
structure Tidy (P : Persona) (s : Comms) : Prop where
  reg : s.reg = []
  others : ∀ name, name ∉ P.targets → alGet name s.names = none
  targets : ∀ name ∈ P.targets, ∃ t n cb, alGet name s.names = some t ∧ alGet t s.nodes = some n ∧ n.managed = true ∧ n.callback = some cb

theorem toXguid_long {s : Str} (h : 55 < s.length) : ∃ why, toXguid (.str s) = .ub why :=
  ⟨_, by unfold toXguid; simp only [Json.getStr, Res.bind_ok]; rw [if_neg (by omega)]⟩

theorem newest_parent {lat : Chan → Json} {w : World Unit} (h : ∀ c, (w.parent c).header = lat c) (m : XMessage) (c c' : Chan) :
    (curParent m c w c').header = newest lat c m c' := by
  unfold curParent newest
  split
  · rfl
  · exact h c'

theorem history_ub {σ : Type} (hs : Sane env) (I : Interp σ) {q : Multipart} {m : XMessage} (c : Chan) (ha : Accepted env.C env.J env.auth q m)
    (w : World σ) (hr : IsReq m .history) {s : String} (h : historyRequest env.H w.hist m.body.content = .ub s) :
    ∃ w', (dispatch env I q c).run w = (.ub s, w') := by
  obtain ⟨w₀, hb, _, _, _, hub, _⟩ := dispatch_req hs I c ha hr w
  exact ⟨w₀, hub s _ (by simp only [handle, historyReq, K.run_bind, K.run_readR, hb.hist, h, K.andThen_ub])⟩

theorem conduct_of [Stock env] {I : Interp Unit} {P : Persona} (hs : Sane env) (hE : Embodies env I P) {q : Multipart} {m : XMessage} {c : Chan}
    (ha : Accepted env.C env.J env.auth q m) {w w' : World Unit} {lat : Chan → Json} (hlat : ∀ c, (w.parent c).header = lat c)
    (hp : ParentsOk w) (hc : InInt w.count) (hl : (w.hist.length : Int) ≤ intMax) (hh : HistOk w.hist) (hT : Tidy P w.comm)
    (hrun : (dispatch env I q c).run w = (.ok (), w')) :
    ∃ b evs i, IsStatus env c "busy" m.body.header b ∧ Conduct P env w.count w.hist (newest lat c m) c m evs w'.count w'.hist ∧
      IsStatus env c "idle" m.body.header i ∧ w'.out = w.out ++ ([b] ++ evs ++ [i]) ∧ w'.comm = w.comm := by
  have hsh : shellParent m c w = newest lat c m .shell := by
    rw [← newest_parent hlat]
    unfold shellParent curParent
    cases c <;> rfl
  have talk : ∀ {k : Call} {rt : String} {Q : Json → Prop}, Talks env m c w [] k [] rt Q w.count [] ((dispatch env I q c).run w) →
      (∀ md j rep, Q j → IsReplyWith env c m.ids m.body.header (lit rt) md j rep →
        Conduct P env w.count w.hist (newest lat c m) c m [.call k, rep] w.count w.hist) →
      ∃ b evs i, IsStatus env c "busy" m.body.header b ∧ Conduct P env w.count w.hist (newest lat c m) c m evs w'.count w'.hist ∧
        IsStatus env c "idle" m.body.header i ∧ w'.out = w.out ++ ([b] ++ evs ++ [i]) ∧ w'.comm = w.comm := by
    intro k rt Q ht hQ
    obtain ⟨b, es, md, j, rep, i, g1, g2, g3, g4, g5, g6⟩ := ht.out
    obtain rfl : es = [] := g2
    have g7 := ht.count
    have g8 := ht.hist
    have g9 := ht.comm
    rw [hrun] at g6 g7 g8 g9
    refine ⟨b, [.call k, rep], i, g1, ?_, g5, by simpa using g6, g9⟩
    rw [show w'.count = _ from g7, show w'.hist = _ from g8, List.append_nil]
    exact hQ md j rep g3 g4
  have handled : ∀ {evs : List Ev}, Handled env m c w evs ((dispatch env I q c).run w) →
      Conduct P env w.count w.hist (newest lat c m) c m evs w.count w.hist →
      ∃ b evs i, IsStatus env c "busy" m.body.header b ∧ Conduct P env w.count w.hist (newest lat c m) c m evs w'.count w'.hist ∧
        IsStatus env c "idle" m.body.header i ∧ w'.out = w.out ++ ([b] ++ evs ++ [i]) ∧ w'.comm = w.comm := by
    intro evs ht hQ
    obtain ⟨b, i, g1, g2, g3⟩ := ht.out
    have g7 := ht.count
    have g8 := ht.hist
    have g9 := ht.comm
    rw [hrun] at g3 g7 g8 g9
    refine ⟨b, _, i, g1, ?_, g2, g3, g9⟩
    rw [show w'.count = _ from g7, show w'.hist = _ from g8]
    exact hQ
  have notUb : ∀ {Q : Prop}, (∃ why w', (dispatch env I q c).run w = (.ub why, w')) → Q := by
    rintro Q ⟨_, _, h⟩
    rw [hrun] at h
    cases h
  have notUb1 : ∀ {Q : Prop}, (∃ why, ((dispatch env I q c).run w).1 = .ub why) → Q := by
    rintro Q ⟨_, h⟩
    rw [hrun] at h
    cases h
  have traffic : ∀ r, IsReq m r → r = .commMsg ∨ r = .commClose →
      ∃ b evs i, IsStatus env c "busy" m.body.header b ∧ Conduct P env w.count w.hist (newest lat c m) c m evs w'.count w'.hist ∧
        IsStatus env c "idle" m.body.header i ∧ w'.out = w.out ++ ([b] ++ evs ++ [i]) ∧ w'.comm = w.comm := by
    intro r hr hk
    cases ho : m.body.content.isObj with
    | false => exact handled (C36_unknown env hs I q m c ha r hr hk w (.inl (.inl ho))) (.comm r hr hk (.inl (.inl ho)))
    | true =>
    cases hf : m.body.content.find? (lit "comm_id") with
    | none => exact notUb (C36_undefined env hs I q m c ha r hr hk w (.inl ⟨ho, hf⟩))
    | some v =>
    by_cases hv : ∃ s, v = .str s
    · obtain ⟨id, rfl⟩ := hv
      by_cases hlen : id.length ≤ 55
      · exact handled (C36_unknown env hs I q m c ha r hr hk w (.inr ⟨id, hf, hlen, by rw [hT.reg]; rfl⟩))
          (.comm r hr hk (.inr ⟨id, hf, hlen⟩))
      · obtain ⟨why, hx⟩ := toXguid_long (s := id) (by omega)
        obtain ⟨w'', h⟩ := traffic_ub hs I c ha w hr hk (s := why) (by simp [Comms.msgLookup, cidx_find hf, hx])
        exact notUb ⟨why, w'', h⟩
    · have hnt : NotText m.body.content "comm_id" := .inr ⟨v, hf, fun s e => hv ⟨s, e⟩⟩
      exact handled (C36_unknown env hs I q m c ha r hr hk w (.inl hnt)) (.comm r hr hk (.inl hnt))
  cases ht : typeOf m.body.header with
  | none =>
    obtain ⟨_, _, hx⟩ := untyped hs I c ha w ht
    rw [hrun] at hx
    cases hx
  | some t =>
  by_cases hk : ∀ r, t ≠ lit (requestType r)
  · exact handled (C15_unknown env hs I q m c t ha ht hk w) (.malformed (.inl ⟨t, ht, hk⟩))
  obtain ⟨r, hr⟩ : ∃ r, t = lit (requestType r) := Classical.byContradiction fun hn => hk fun r h => hn ⟨r, h⟩
  have hr : IsReq m r := by rw [hr] at ht; exact ht
  cases r with
  | execute =>
    cases hf : execFields m.body.content with
    | none =>
      by_cases hw : ExecWild m.body.content
      · exact notUb1 (C24_undefined env hs I q m c ha w (.inl ⟨hr, hw⟩)).1
      · exact handled (C24_bad env hs I q m c ha w (.inl ⟨hr, hf, hw⟩)) (.malformed (.inr (.inl ⟨hr, hf⟩)))
    | some f =>
      have hov : f.silent = false → InInt (w.count + 1) := by
        intro hsil
        by_cases h : InInt (w.count + 1)
        · exact h
        · exact notUb1 (exec_overflow hs I c ha hr hf hsil h)
      obtain ⟨pre, g0, ht⟩ := hE.execute q m c w ha hr f hf hp hc hov
      obtain ⟨b, said, md, j, rep, i, g1, g2, g3, g4, g5, g6⟩ := ht.out
      have g7 := ht.count
      have g8 := ht.hist
      have g9 := ht.comm
      rw [hrun] at g6 g7 g8 g9
      refine ⟨b, pre ++ [.call (execCall w f)] ++ said ++ [rep], i, g1, ?_, g5, ?_, g9⟩
      · rw [show w'.count = _ from g7, show w'.hist = _ from g8]
        refine .execute f pre said md j rep hr hf ?_ (hsh ▸ g2) g3 g4
        unfold ExecAnnounce at g0
        cases hsil : f.silent with
        | true => simpa [hsil] using g0
        | false => simpa [hsil, nextCount, hsh] using g0
      · simpa using g6
  | complete =>
    cases hf : completeFields m.body.content with
    | none =>
      by_cases hw : CompleteWild m.body.content
      · exact notUb1 (C24_undefined env hs I q m c ha w (.inr (.inl ⟨hr, hw⟩))).1
      · exact handled (C24_bad env hs I q m c ha w (.inr (.inl ⟨hr, hf, hw⟩))) (.malformed (.inr (.inr (.inl ⟨hr, hf⟩))))
    | some f => exact talk (hE.complete q m c w ha hr f.1 f.2 hf) fun md j rep => .complete f.1 f.2 md j rep hr hf
  | inspect =>
    cases hf : inspectFields m.body.content with
    | none =>
      by_cases hw : InspectWild m.body.content
      · exact notUb1 (C24_undefined env hs I q m c ha w (.inr (.inr ⟨hr, hw⟩))).1
      · exact handled (C24_bad env hs I q m c ha w (.inr (.inr (.inl ⟨hr, hf, hw⟩)))) (.malformed (.inr (.inr (.inr (.inl ⟨hr, hf⟩)))))
    | some f => exact talk (hE.inspect q m c w ha hr f.1 f.2.1 f.2.2 hf) fun md j rep => .inspect f.1 f.2.1 f.2.2 md j rep hr hf
  | isComplete =>
    cases hf : codeField m.body.content with
    | none =>
      exact handled (C24_bad env hs I q m c ha w (.inr (.inr (.inr (.inl ⟨hr, hf⟩))))) (.malformed (.inr (.inr (.inr (.inr (.inl ⟨hr, hf⟩))))))
    | some code => exact talk (hE.isComplete q m c w ha hr code hf) fun md j rep => .isComplete code md j rep hr hf
  | kernelInfo => exact talk (hE.info q m c w ha hr) fun md j rep => .info md j rep hr
  | debug =>
    exact handled (C24_bad env hs I q m c ha w (.inr (.inr (.inr (.inr ⟨hr, hE.debug⟩)))))
      (.malformed (.inr (.inr (.inr (.inr (.inr (.inr (.inr hr))))))))
  | interrupt =>
    obtain ⟨note, rep, g1, g2, g3⟩ := C23_interrupt env hs I q m c ha hr w hp
    rw [newest_parent hlat] at g1
    exact handled g3 (.interrupt note rep hr g1 g2)
  | shutdown =>
    cases hf : restartField m.body.content with
    | none => exact handled (C22_bad env hs I q m c ha hr hf w) (.malformed (.inr (.inr (.inr (.inr (.inr (.inr (.inl ⟨hr, hf⟩))))))))
    | some restart =>
      obtain ⟨w₁, hat, hok, _⟩ := C22_shutdown env hs I q m c restart ha hr hf w hp
      obtain ⟨note, rep, g1, g2, g3⟩ := hok w₁ (by rw [hE.shutdown]; rfl)
      rw [newest_parent hlat] at g1
      obtain ⟨b, g4, g5⟩ := hat.out
      obtain ⟨i, g6, g7⟩ := g3.out
      have e1 := g3.count
      have e2 := g3.hist
      have e3 := g3.comm
      rw [hrun] at g7 e1 e2 e3
      refine ⟨b, [.call .shutdown, .stop, note, rep], i, g4, ?_, g6, ?_, ?_⟩
      · rw [show w'.count = _ from e1, show w'.hist = _ from e2, hat.count, hat.hist]
        exact .shutdown restart note rep hr hf g1 g2
      · rw [show w'.out = _ from g7, g5]; simp
      · rw [show w'.comm = _ from e3, hat.comm]
  | history =>
    obtain ⟨h1, h2, h3⟩ := history_handled hs I c ha w hr
    obtain ⟨R, hR, hm⟩ := Stock.memory (env := env)
    obtain ⟨hhang, hfine⟩ := fine_history hR hh env.eh m.body.content
    rw [← hm] at hhang hfine
    cases hq : historyRequest env.H w.hist m.body.content with
    | ok j =>
      obtain ⟨rep, g1, g2⟩ := h1 j hq (hfine j hq)
      exact handled g2 (.history j rep hr (history_answer hR hl _ (by rw [← hm, hq]; rfl)) g1)
    | exc e => exact handled (h3 e hq) (.noHistory hr (history_answer hR hl _ (by rw [← hm, hq]; rfl)))
    | ub s =>
      obtain ⟨w'', h⟩ := history_ub hs I c ha w hr hq
      exact notUb ⟨s, w'', h⟩
    | hang => exact absurd hq hhang
  | commInfo =>
    cases hf : targetField m.body.content with
    | none => exact handled (C25_bad env hs I q m c ha hr hf w) (.malformed (.inr (.inr (.inr (.inr (.inr (.inl ⟨hr, hf⟩)))))))
    | some wanted =>
      have hnone : ∀ id, registeredTarget w.comm id = none := fun id => by unfold registeredTarget; rw [hT.reg]; rfl
      obtain ⟨j, rep, g1, g2, g3⟩ := C25_comm_info env hs I q m c wanted ha hr hf w
        ⟨by rw [hT.reg]; simp, by rw [hT.reg]; simp⟩ fun _ id n h => by rw [hnone id] at h; cases h
      have hj : j = .obj [] := by
        obtain ⟨g4, g5⟩ := g1
        cases j <;> simp [Json.isObj] at g4
        rename_i kvs
        cases kvs with
        | nil => rfl
        | cons x kvs =>
          have := g5 x.1
          rw [hnone x.1] at this
          simp [Json.find?, Json.lookup] at this
      subst hj
      exact handled g3 (.commInfo wanted rep hr hf g2)
  | commOpen =>
    cases ho : m.body.content.isObj with
    | false => exact handled (C35_bad env hs I q m c ha hr w (.inl (.inl ho))) (.commOpen hr (.inl (.inl ho)))
    | true =>
    cases hf : m.body.content.find? (lit "target_name") with
    | none => exact notUb (C35_undefined env hs I q m c ha hr w (.inr (.inl ⟨ho, hf⟩)))
    | some v =>
    by_cases hv : ∃ s, v = .str s
    · obtain ⟨name, rfl⟩ := hv
      by_cases hn : name ∈ P.targets
      · obtain ⟨t, n, cb, k1, k2, k3, k4⟩ := hT.targets name hn
        cases hg : m.body.content.find? (lit "comm_id") with
        | none => exact notUb (C35_undefined env hs I q m c ha hr w (.inr (.inr ⟨hg, name, t, n, hf, k1, k2⟩)))
        | some u =>
        by_cases hu : ∃ s, u = .str s
        · obtain ⟨id, rfl⟩ := hu
          by_cases hlen : id.length ≤ 55
          · obtain ⟨a, s₁, w₁, hcr, hat, hok, _⟩ := C35_open env hs I q m c ha hr w hf hg hlen k1 k2 k3 k4
            rcases hok w₁ (by rw [hE.target]; rfl) with ⟨s', hD, _⟩ | ⟨_, why, hx⟩
            · exfalso
              obtain ⟨c', d1, d2⟩ := hD.reg
              rw [hat.comm] at d1
              have := hcr.objs a
              rw [if_pos rfl] at this
              rw [show ({ w with comm := s₁ } : World Unit).comm = s₁ from rfl, this] at d1
              cases d1
              rcases d2 with ⟨d2, _⟩ | ⟨d2, _⟩ <;> cases d2
            · exact notUb ⟨why, _, hx⟩
          · obtain ⟨why, hx⟩ := toXguid_long (s := id) (by omega)
            obtain ⟨w'', h⟩ := open_ub hs I c ha w hr (s := why) (by
              simp [Comms.openLookup, cidx_find hf, cidx_find hg, Json.getStr, k1, Comms.node, k2, hx])
            exact notUb ⟨why, w'', h⟩
        · have hnt : NotText m.body.content "comm_id" := .inr ⟨u, hg, fun s e => hu ⟨s, e⟩⟩
          exact handled (C35_bad env hs I q m c ha hr w (.inr ⟨hnt, name, t, n, hf, k1, k2⟩)) (.commOpen hr (.inr ⟨name, hf, .inr hnt⟩))
      · exact handled (C35_unregistered env hs I q m c ha hr w hf (hT.others name hn)) (.commOpen hr (.inr ⟨name, hf, .inl hn⟩))
    · have hnt : NotText m.body.content "target_name" := .inr ⟨v, hf, fun s e => hv ⟨s, e⟩⟩
      exact handled (C35_bad env hs I q m c ha hr w (.inl hnt)) (.commOpen hr (.inl hnt))
  | commMsg => exact traffic .commMsg hr (.inl rfl)
  | commClose => exact traffic .commClose hr (.inr rfl)

/-! ## All messages -/

theorem conduct_grows {P : Persona} {n n' : Int} {h h' : Hist} {lat : Chan → Json} {c : Chan} {m : XMessage} {evs : List Ev}
    (hC : Conduct P env n h lat c m evs n' h') (hl : (h.length : Int) ≤ n) : (h'.length : Int) ≤ n' := by
  cases hC with
  | execute f pre said md j rep _ _ _ _ _ _ =>
    unfold execEntries nextCount
    cases hs : f.silent <;> cases hst : f.store <;> simp <;> omega
  | _ => exact hl

theorem conduct_hist (hs : Sane env) {P : Persona} {n n' : Int} {h h' : Hist} {lat : Chan → Json} {c : Chan} {m : XMessage} {evs : List Ev}
    {q : Multipart} (ha : Accepted env.C env.J env.auth q m) (hC : Conduct P env n h lat c m evs n' h') (hh : HistOk h) : HistOk h' := by
  cases hC with
  | execute f pre said md j rep _ hf _ _ _ _ =>
    intro e he
    rcases List.mem_append.1 he with he | he
    · exact hh e he
    · unfold execEntries at he
      split at he
      · rw [List.mem_singleton] at he
        subst he
        exact ⟨utf8_lit (by decide), intToString_utf8 _, (execFields_parsed (accepted_parsed hs ha).2.2.2 hf).1, utf8_ascii (by simp)⟩
      · cases he
  | _ => exact hh

theorem serial_everything [Stock env] {I : Interp Unit} {P : Persona} (hs : Sane env) (hE : Embodies env I P) {st : Start Unit}
    (h0 : st.w.hist = []) (hT : Tidy P st.w.comm) {l : List (Chan × Multipart)} {as : List Multipart} {w : World Unit}
    (h : Serial env I st l as w) :
    w.comm = st.w.comm ∧ HistOk w.hist ∧ (w.hist.length : Int) ≤ w.count ∧
      Everything P env l w.out w.count w.hist fun c => (w.parent c).header := by
  have one : ∀ {l as w w'} {c : Chan} {q : Multipart}, Serial env I st l as w → ∀ r, ¬ stopAsked w →
      (dispatch env I q c).run { w with shellQ := r } = (.ok (), w') →
      w.comm = st.w.comm ∧ HistOk w.hist ∧ (w.hist.length : Int) ≤ w.count ∧
        Everything P env l w.out w.count w.hist (fun c => (w.parent c).header) →
      w'.comm = st.w.comm ∧ HistOk w'.hist ∧ (w'.hist.length : Int) ≤ w'.count ∧
        Everything P env (l ++ [(c, q)]) w'.out w'.count w'.hist fun c => (w'.parent c).header := by
    intro l as w w' c q hb r hst hrun ⟨i1, i2, i3, i4⟩
    have hp := serial_parents hs hb
    obtain ⟨k, hk⟩ := C17_tally_exists env (l.map fun x => (x.2, x.1))
    obtain ⟨c1, c2, _⟩ := serial_count hs hb k hk
    have hc : InInt w.count := by rw [c2]; exact c1
    rcases dispatch_trichotomy (env := env) I q c { w with shellQ := r } with ⟨hr, hd⟩ | ⟨_, s, hd⟩ | ⟨m, ha⟩
    · rw [hd] at hrun
      simp only [Prod.mk.injEq, true_and] at hrun
      subst hrun
      exact ⟨i1, i2, i3, i4.refused c q hst hr⟩
    · rw [hd] at hrun; cases hrun
    · obtain ⟨b, evs, i, g1, g2, g3, g4, g5⟩ := conduct_of (w := { w with shellQ := r }) hs hE ha (fun _ => rfl) hp hc
        (show (w.hist.length : Int) ≤ intMax from Int.le_trans i3 hc.2) i2 (show Tidy P w.comm by rw [i1]; exact hT) hrun
      have hpar := dispatch_parent hs I c ha { w with shellQ := r }
      rw [hrun] at hpar
      refine ⟨g5.trans i1, conduct_hist hs ha g2 i2, conduct_grows g2 i3, ?_⟩
      have hlat : (fun c' => (w'.parent c').header) = newest (fun c' => (w.parent c').header) c m := by
        funext c'
        rw [show w'.parent = _ from hpar]
        exact newest_parent (w := { w with shellQ := r }) (fun _ => rfl) m c c'
      rw [hlat, g4]
      exact .accepted c q m b evs i _ _ i4 hst ha g1 g2 g3
  induction h with
  | start =>
    refine ⟨rfl, (by rw [h0]; intro e he; cases he), by rw [h0, st.count]; simp, ?_⟩
    rw [st.out, st.count, h0, st.parent]
    exact .nil
  | arrive A B _ ih => exact ih
  | @shell l as w w' q r hb hst hq hrun ih => exact one hb r hst hrun ih
  | @control l as w w' q hb hst hrun ih => exact one hb w.shellQ hst hrun ih

end Xeus
