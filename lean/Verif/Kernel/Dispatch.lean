import Verif.Kernel.Handlers

/-!
# Abort loop, execute, and dispatch (no property statements here)
-/

namespace Xeus

open Spec K

variable {σ : Type}

theorem accepted_parsed {env : Env} (hs : Sane env) {q : Multipart} {m : XMessage}
    (h : Accepted env.C env.J env.auth q m) :
    Parsed m.body.header ∧ Parsed m.body.parent ∧ Parsed m.body.metadata ∧ Parsed m.body.content := by
  obtain ⟨_, _, _, _, _, _, h1, h2, h3, h4, _⟩ := h
  exact ⟨hs.codec.parse_wf _ _ h1, hs.codec.parse_wf _ _ h2, hs.codec.parse_wf _ _ h3, hs.codec.parse_wf _ _ h4⟩

/-! ## The abort loop -/

/-- Everything but the queue, the trace, and the GUID and clock counters is unchanged. -/
structure SameCore (w w' : World σ) : Prop where
  parent : w'.parent = w.parent
  st : w'.st = w.st
  count : w'.count = w.count
  input : w'.input = w.input
  hist : w'.hist = w.hist
  comm : w'.comm = w.comm
  stdinQ : w'.stdinQ = w.stdinQ

theorem SameCore.refl (w : World σ) : SameCore w w := ⟨rfl, rfl, rfl, rfl, rfl, rfl, rfl⟩

theorem SameCore.trans {a b c : World σ} (h₁ : SameCore a b) (h₂ : SameCore b c) : SameCore a c :=
  ⟨h₂.1.trans h₁.1, h₂.2.trans h₁.2, h₂.3.trans h₁.3, h₂.4.trans h₁.4, h₂.5.trans h₁.5, h₂.6.trans h₁.6,
    h₂.7.trans h₁.7⟩

/-- Outcome of the handling of one queued message. -/
structure AbortQ (env : Env) (q : Multipart) (w : World σ) (x : Res Unit × World σ) : Prop where
  core : SameCore w x.2
  shellQ : x.2.shellQ = w.shellQ
  nohang : x.1 ≠ .hang
  out : (x.1 = .ok () ∧ Refused env.C env.J env.auth q ∧ x.2.out = w.out) ∨
    (x.1 = .ok () ∧ ∃ m e, Accepted env.C env.J env.auth q m ∧ IsAbortReply env m e ∧ x.2.out = w.out ++ [e]) ∨
    ((∃ e, x.1 = .exc e ∧ e.isStd = true) ∧ ¬ Undefined env.J env.auth q ∧ x.2.out = w.out) ∨
    ((∃ s, x.1 = .ub s) ∧ Undefined env.J env.auth q ∧ x.2.out = w.out)
  able : x.1 = .ok () ↔ Abortable env q

theorem run_abortRequest_accepted {env : Env} {q : Multipart} {m : XMessage}
    (hd : deserialize env.C env.J env.auth q = .ok m) (w : World σ) :
    (abortRequest env q).run w =
      K.andThen (m.body.header.value (lit "msg_type") Json.getStr [], w) fun t w' =>
      K.andThen (abortName t, w') fun t w' =>
      (sendReplyTo env m.ids t m.body.header (.obj []) (.obj [(lit "status", .str (lit "error"))]) .shell).run w' := by
  simp only [abortRequest, K.run_bind, K.run_attempt, K.run_ofRes, hd, K.captured_ok, K.andThen_ok, Json.put]

theorem AbortType.mem {t t' : Str} (h : AbortType t t') : 95 ∈ t := by
  obtain ⟨a, b, rfl, _, _⟩ := h
  simp [show lit "_" = [95] by decide]

theorem last_unique {a b a' b' : Str} (h : a ++ [95] ++ b = a' ++ [95] ++ b') (hb : (95 : UInt8) ∉ b)
    (hb' : (95 : UInt8) ∉ b') : a = a' ∧ b = b' := by
  rw [List.append_assoc, List.append_assoc, List.append_eq_append_iff] at h
  rcases h with ⟨l, rfl, h⟩ | ⟨l, rfl, h⟩
  · cases l with
    | nil => simp at h; simp [h]
    | cons x l =>
      simp at h
      exact absurd (by rw [h.2]; simp) hb
  · cases l with
    | nil => simp at h; simp [h]
    | cons x l =>
      simp at h
      exact absurd (by rw [h.2]; simp) hb'

theorem AbortType.unique {t a b : Str} (h : AbortType t a) (h' : AbortType t b) : a = b := by
  obtain ⟨p, s, rfl, hs, rfl⟩ := h
  obtain ⟨p', s', he, hs', rfl⟩ := h'
  rw [show lit "_" = [95] by decide] at he
  obtain ⟨rfl, rfl⟩ := last_unique he hs hs'
  rfl

theorem abortRequest_ok {env : Env} (hs : Sane env) {q : Multipart} (hq : Abortable env q) (w : World σ) :
    ((abortRequest env q).run w).1 = .ok () := by
  rcases hq with hr | ⟨m, t, t', ha, ht, hn, hu⟩
  · obtain ⟨e, hd, he⟩ := refused_exc _ _ _ _ hr
    simp only [abortRequest, K.run_bind, K.run_attempt, K.run_ofRes, hd, K.captured_exc, K.andThen_ok, he, if_true,
        K.run_pure]
  · rw [run_abortRequest_accepted (accepted_ok _ _ _ _ _ ha), value_typeOf ht, K.andThen_ok]
    obtain ⟨t'', hn'⟩ := abortName_some (AbortType.mem hn)
    rw [hn', K.andThen_ok]
    have : t'' = t' := AbortType.unique (abortName_ok hn') hn
    subst this
    obtain ⟨wire, hw⟩ := serialize_ok (C := env.C) hs.codec env.auth (eh := env.eh)
      (m := replyAt env w m.ids t'' m.body.header (.obj []) (.obj [(lit "status", .str (lit "error"))]))
      (hdrAt_printable hs w hu) (Parsed.printable (accepted_parsed hs ha).1 env.eh) (emptyObj_printable _)
      (obj1_printable (utf8_lit (by decide)) (str_printable fun _ => utf8_lit (by decide)))
    rw [run_sendReplyTo, hs.log, K.andThen_ok, hw, K.andThen_ok]

theorem abortable_of_sent {env : Env} (hs : Sane env) {q : Multipart} {m : XMessage} {t t' : Str} {w : World σ}
    {wire : Multipart} (ha : Accepted env.C env.J env.auth q m) (ht : typeOf m.body.header = some t)
    (hn : AbortType t t') {md ct : Json}
    (hw : serialize env.C env.J env.auth env.eh (replyAt env w m.ids t' m.body.header md ct) = .ok wire) :
    Abortable env q := by
  refine .inr ⟨m, t, t', ha, ht, hn, fun he => ?_⟩
  rw [he] at hw
  by_cases hu : JsonUtf8 (hdrAt env w t')
  · cases hu with
    | obj _ h2 =>
      have := h2 (lit "msg_type", .str t') (by simp)
      cases this with | str h => exact h
  · have := hs.codec.dump_strict _ hu
    simp [serialize, serializeBase, Codec.writeZmq, replyAt, this] at hw

theorem accepted_not_undefined {C : Crypto} {J : Codec} {a : Auth} {q : Multipart} {m : XMessage}
    (h : Accepted C J a q m) : ¬ Undefined J a q := by
  intro hu
  obtain ⟨s, hs⟩ := undefined_ub C J a q hu
  rw [accepted_ok C J a q m h] at hs
  simp at hs

theorem abortRequest_q {env : Env} (hs : Sane env) (q : Multipart) (w : World σ) :
    AbortQ env q w ((abortRequest env q).run w) := by
  have hok := fun h => abortRequest_ok hs (q := q) h w
  rcases deserialize_cases env.C env.J env.auth q with ⟨m, ha, hd⟩ | ⟨hr, e, hd, he⟩ | ⟨hu, s, hd⟩
  · have hnu := accepted_not_undefined ha
    rw [run_abortRequest_accepted hd] at hok ⊢
    rcases value_str_cases m.body.header (lit "msg_type") [] with ⟨t, ht⟩ | ht
    · rw [ht, K.andThen_ok] at hok ⊢
      by_cases hm : 95 ∈ t
      · obtain ⟨t', hn⟩ := abortName_some hm
        rw [hn, K.andThen_ok] at hok ⊢
        rcases sendReplyTo_cases hs.log m.ids t' m.body.header (.obj [])
          (.obj [(lit "status", .str (lit "error"))]) .shell w with ⟨wire, hw, h⟩ | h
        · rw [h]
          exact ⟨⟨rfl, rfl, rfl, rfl, rfl, rfl, rfl⟩, rfl, by simp, .inr (.inl ⟨rfl, m,
            .reply .shell (replyAt env w m.ids t' m.body.header (.obj [])
            (.obj [(lit "status", .str (lit "error"))])) wire, ha, ⟨t, t', typeOf_value ht, abortName_ok hn,
            ⟨_, _, rfl, rfl, rfl, hdrAt_wf env w t', rfl, rfl, rfl⟩⟩, rfl⟩),
            ⟨fun _ => abortable_of_sent hs ha (typeOf_value ht) (abortName_ok hn) hw, fun _ => rfl⟩⟩
        · rw [h] at hok ⊢
          exact ⟨⟨rfl, rfl, rfl, rfl, rfl, rfl, rfl⟩, rfl, by simp, .inr (.inr (.inl ⟨⟨_, rfl, rfl⟩, hnu, rfl⟩)),
            ⟨by simp, hok⟩⟩
      · rw [abortName_exc hm, K.andThen_exc] at hok ⊢
        exact ⟨.refl w, rfl, by simp, .inr (.inr (.inl ⟨⟨_, rfl, rfl⟩, hnu, rfl⟩)), ⟨by simp, hok⟩⟩
    · rw [ht, K.andThen_exc] at hok ⊢
      exact ⟨.refl w, rfl, by simp, .inr (.inr (.inl ⟨⟨_, rfl, rfl⟩, hnu, rfl⟩)), ⟨by simp, hok⟩⟩
  · have : (abortRequest env q).run w = (.ok (), w) := by
      simp only [abortRequest, K.run_bind, K.run_attempt, K.run_ofRes, hd, K.captured_exc, K.andThen_ok, he, if_true,
        K.run_pure]
    rw [this]
    exact ⟨.refl w, rfl, by simp, .inl ⟨rfl, hr, rfl⟩, ⟨fun _ => .inl hr, fun _ => rfl⟩⟩
  · have : (abortRequest env q).run w = (.ub s, w) := by
      simp only [abortRequest, K.run_bind, K.run_attempt, K.run_ofRes, hd, K.captured_ub, K.andThen_ub]
    rw [this] at hok ⊢
    exact ⟨.refl w, rfl, by simp, .inr (.inr (.inr ⟨⟨_, rfl⟩, hu, rfl⟩)), ⟨by simp, hok⟩⟩

/-- Outcome of the abort loop, and of the part of `execute_request` after the reply. -/
structure LoopQ (env : Env) (w : World σ) (x : Res Unit × World σ) : Prop where
  core : SameCore w x.2
  nohang : x.1 ≠ .hang
  nf : ∀ n, x.1 ≠ .exc (.foreign n)
  out : ∃ done stuck ab, w.shellQ = done ++ stuck ++ x.2.shellQ ∧ x.2.out = w.out ++ ab ∧ AbortAll env done ab ∧
    stuck.length ≤ 1 ∧ (∀ q ∈ done, Abortable env q) ∧ (stuck = [] → x.2.shellQ = [] ∧ x.1 = .ok ()) ∧
    (∀ q ∈ stuck, ¬ Abortable env q ∧ (Undefined env.J env.auth q → ∃ s, x.1 = .ub s) ∧
      (¬ Undefined env.J env.auth q → ∃ e, x.1 = .exc e ∧ e.isStd = true))

theorem abortLoop_q {env : Env} (hs : Sane env) : ∀ (n : Nat) (w : World σ), w.shellQ.length < n →
    LoopQ env w ((abortLoop env n).run w)
  | 0, w, h => by omega
  | n + 1, w, h => by
    cases hq : w.shellQ with
    | nil =>
      have : (abortLoop env (n + 1)).run w = (.ok (), w) := by
        simp only [abortLoop, K.run_bind, recvShell, K.run_lift, hq, K.andThen_ok, K.run_pure]
      rw [this]
      exact ⟨.refl w, by simp, by simp, ⟨[], [], [], by simp, by simp, .nil, by simp, by simp, fun _ => ⟨hq, rfl⟩,
        by simp⟩⟩
    | cons q r =>
      have hrun : (abortLoop env (n + 1)).run w =
          K.andThen ((abortRequest env q).run { w with shellQ := r }) fun _ w' => (abortLoop env n).run w' := by
        simp only [abortLoop, K.run_bind, recvShell, K.run_lift, hq, K.andThen_ok]
      rw [hrun]
      have h1 := abortRequest_q hs q { w with shellQ := r }
      generalize (abortRequest env q).run { w with shellQ := r } = x at h1 ⊢
      obtain ⟨y, w₁⟩ := x
      have hcore : SameCore w w₁ := ⟨h1.core.1, h1.core.2, h1.core.3, h1.core.4, h1.core.5, h1.core.6, h1.core.7⟩
      have hsq : w₁.shellQ = r := h1.shellQ
      have hrec := abortLoop_q hs n w₁ (by rw [hsq]; rw [hq] at h; simp at h; omega)
      have hable : y = .ok () ↔ Abortable env q := h1.able
      rcases h1.out with ⟨hy, hr, ho⟩ | ⟨hy, m, e, ha, hab, ho⟩ | ⟨⟨e, hy, he⟩, hnu, ho⟩ | ⟨⟨s, hy⟩, hu, ho⟩ <;>
        simp only at hy ho
      · subst hy
        rw [K.andThen_ok]
        obtain ⟨done, stuck, ab, e1, e2, e3, e4, e5, e6, e7⟩ := hrec.out
        refine ⟨hcore.trans hrec.core, hrec.nohang, hrec.nf,
          ⟨q :: done, stuck, ab, ?_, by rw [e2, ho], .dropped hr e3, e4, ?_, e6, e7⟩⟩
        · rw [hq, ← hsq, e1]; simp
        · intro q' hq'
          rcases List.mem_cons.mp hq' with rfl | hq'
          · exact hable.1 rfl
          · exact e5 q' hq'
      · subst hy
        rw [K.andThen_ok]
        obtain ⟨done, stuck, ab, e1, e2, e3, e4, e5, e6, e7⟩ := hrec.out
        refine ⟨hcore.trans hrec.core, hrec.nohang, hrec.nf,
          ⟨q :: done, stuck, e :: ab, ?_, by rw [e2, ho]; simp, .answered ha hab e3, e4, ?_, e6, e7⟩⟩
        · rw [hq, ← hsq, e1]; simp
        · intro q' hq'
          rcases List.mem_cons.mp hq' with rfl | hq'
          · exact hable.1 rfl
          · exact e5 q' hq'
      · subst hy
        rw [K.andThen_exc]
        refine ⟨hcore, by simp, ?_, ⟨[], [q], [], by simp [hq, hsq], by simp [ho], .nil, by simp, by simp, by simp, ?_⟩⟩
        · intro n hn
          simp at hn; subst hn; simp [Exc.isStd] at he
        · intro q' hq'
          obtain rfl := List.mem_singleton.mp hq'
          exact ⟨fun h => by have := hable.2 h; simp at this, fun h => absurd h hnu, fun _ => ⟨e, rfl, he⟩⟩
      · subst hy
        rw [K.andThen_ub]
        refine ⟨hcore, by simp, by simp, ⟨[], [q], [], by simp [hq, hsq], by simp [ho], .nil, by simp, by simp, by simp, ?_⟩⟩
        intro q' hq'
        obtain rfl := List.mem_singleton.mp hq'
        exact ⟨fun h => by have := hable.2 h; simp at this, fun _ => ⟨s, rfl⟩, fun h => absurd hu h⟩

theorem abortQueue_q {env : Env} (hs : Sane env) (w : World σ) : LoopQ env w ((abortQueue env).run w) := by
  simp only [abortQueue, K.run_bind, K.run_read, K.andThen_ok]
  exact abortLoop_q hs _ w (by omega)

/-! ## What a handler does -/

/-- Outcome of a handler for a request of kind `r` on channel `c`. -/
structure HQ (env : Env) (r : Req) (c : Chan) (w : World σ) (x : Res Unit × World σ) : Prop where
  parent : x.2.parent = w.parent
  count : r ≠ .execute → x.2.count = w.count
  hist : ∃ l, x.2.hist = w.hist ++ l ∧ (r ≠ .execute → l = [])
  stdinQ : ∃ used, w.stdinQ = used ++ x.2.stdinQ
  out : ∃ pre rep ab done stuck, x.2.out = w.out ++ (pre ++ rep ++ ab) ∧ (∀ e ∈ pre, PEv env r w.parent e) ∧
    rep.length ≤ 1 ∧
    (∀ e ∈ rep, ∃ t, replyType r = some t ∧ IsReply env c (w.parent c).ids (w.parent c).header (lit t) e) ∧
    w.shellQ = done ++ stuck ++ x.2.shellQ ∧ AbortAll env done ab ∧ (stuck.length ≤ 1 ∧ ∀ q ∈ stuck, ¬ Abortable env q) ∧
    (r ≠ .execute → done = [] ∧ stuck = []) ∧ ForeignOk pre x.1 ∧
    (∀ n, x.1 = .exc (.foreign n) → rep = [] ∧ ab = [])

def HOk (env : Env) (r : Req) (c : Chan) (m : K (World σ) Unit) : Prop := ∀ w, HQ env r c w (m.run w)

theorem HQ.of_pre {env : Env} {r : Req} (c : Chan) {w : World σ} {x : Res Unit × World σ} (h : PreQ env r w x) :
    HQ env r c w x := by
  obtain ⟨es, he, hp, hf⟩ := h.out
  exact ⟨h.parent, h.count, ⟨[], by simp [h.hist], by simp⟩, h.stdinQ, ⟨es, [], [], [], [], by simp [he], hp,
    by simp, by simp, by simp [h.shellQ], .nil, by simp, by simp, hf, by simp⟩⟩

theorem HQ.of_ans {env : Env} {r : Req} {t : String} {c : Chan} (ht : replyType r = some t) {w : World σ}
    {x : Res Unit × World σ} (h : AnsQ env r (lit t) c w x) : HQ env r c w x := by
  obtain ⟨pre, rep, he, hp, hl, hr, ho, hno, hf⟩ := h.out
  exact ⟨h.parent, h.count, ⟨[], by simp [h.hist], by simp⟩, h.stdinQ, ⟨pre, rep, [], [], [], by simp [he], hp,
    hl, fun e he => ⟨t, ht, hr e he⟩, by simp [h.shellQ], .nil, by simp, by simp, hf,
    fun n hn => ⟨hno (by simp [hn]), rfl⟩⟩⟩

theorem HOk.bind_pre {env : Env} {r : Req} {c : Chan} {α : Type} {m : K (World σ) α} {g : α → K (World σ) Unit}
    (hm : PreOk env r m) (hg : ∀ a, HOk env r c (g a)) : HOk env r c (m >>= g) := by
  intro w
  rw [K.run_bind]
  have hx := hm w
  generalize m.run w = x at hx ⊢
  obtain ⟨y, w₁⟩ := x
  cases y with
  | ok a =>
    rw [K.andThen_ok]
    obtain ⟨e₁, he₁, hp₁, hf₁⟩ := hx.out
    obtain ⟨u₁, hu₁⟩ := hx.stdinQ
    have hpar : w₁.parent = w.parent := hx.parent
    have hsq : w₁.shellQ = w.shellQ := hx.shellQ
    simp only at he₁ hu₁ hf₁
    have h2 := hg a w₁
    obtain ⟨u₂, hu₂⟩ := h2.stdinQ
    obtain ⟨l, hl, hl'⟩ := h2.hist
    obtain ⟨pre, rep, ab, done, stuck, a1, a2, a3, a4, a5, a6, a7, a8, a9, a10⟩ := h2.out
    refine ⟨h2.parent.trans hx.parent, fun hr => (h2.count hr).trans (hx.count hr),
      ⟨l, by rw [hl]; exact congrArg (· ++ l) hx.hist, hl'⟩, ⟨u₁ ++ u₂, by rw [hu₁, hu₂, List.append_assoc]⟩,
      ⟨e₁ ++ pre, rep, ab, done, stuck, by rw [a1, he₁]; simp, ?_, a3, ?_, by rw [← hsq, a5], a6, a7, a8, ⟨?_, ?_⟩, a10⟩⟩
    · intro e he
      rcases List.mem_append.mp he with he | he
      · exact hp₁ e he
      · have := a2 e he
        rwa [hpar] at this
    · rw [hpar] at a4; exact a4
    · intro n hn
      obtain ⟨es', hes⟩ := a9.1 n hn
      exact ⟨e₁ ++ es', by rw [hes, List.append_assoc]⟩
    · intro n hn
      rcases List.mem_append.mp hn with hn | hn
      · rcases hf₁.2 n hn with h | ⟨_, h⟩ <;> simp at h
      · exact a9.2 n hn
  | exc e =>
    rw [K.andThen_exc]
    obtain ⟨es, h1, h2, h3, h4⟩ := hx.out
    exact HQ.of_pre c ⟨hx.parent, hx.hist, hx.shellQ, hx.count, hx.stdinQ,
      ⟨es, h1, h2, fun n hn => h3 n (by simpa using hn), fun n hn => by simpa using h4 n hn⟩⟩
  | ub s =>
    rw [K.andThen_ub]
    obtain ⟨es, h1, h2, h3, h4⟩ := hx.out
    exact HQ.of_pre c ⟨hx.parent, hx.hist, hx.shellQ, hx.count, hx.stdinQ,
      ⟨es, h1, h2, fun n hn => by simp at hn, fun n hn => by simp⟩⟩
  | hang =>
    rw [K.andThen_hang]
    obtain ⟨es, h1, h2, h3, h4⟩ := hx.out
    refine HQ.of_pre c ⟨hx.parent, hx.hist, hx.shellQ, hx.count, hx.stdinQ,
      ⟨es, h1, h2, fun n hn => by simp at hn, fun n hn => ?_⟩⟩
    rcases h4 n hn with h | ⟨_, h⟩ <;> simp at h

/-- The end of `execute_request`, after the reply. -/
def tailK (env : Env) (silent store : Bool) (line : Int) (code status : Str) (stop : Bool) : K (World σ) Unit := do
  storeK silent store line code
  abortK env silent status stop

/-- The history after `storeK`. -/
def storedHist (h : Hist) (silent store : Bool) (line : Int) (code : Str) : Hist :=
  if silent = false ∧ store = true then storeInputs h 0 line code [] else h

theorem run_storeK (silent store : Bool) (line : Int) (code : Str) (w : World σ) :
    (storeK silent store line code).run w = (.ok (), { w with hist := storedHist w.hist silent store line code }) := by
  unfold storeK storedHist
  by_cases h : silent = false ∧ store = true <;> simp only [h, K.run_modify, K.run_pure, and_self, if_true, if_false]

theorem run_tailK (env : Env) (silent store : Bool) (line : Int) (code status : Str) (stop : Bool) (w : World σ) :
    (tailK env silent store line code status stop).run w =
      (abortK env silent status stop).run { w with hist := storedHist w.hist silent store line code } := by
  simp only [tailK, K.run_bind, run_storeK, K.andThen_ok]

/-- Outcome of `tailK`. -/
structure TailQ (env : Env) (w : World σ) (x : Res Unit × World σ) : Prop where
  parent : x.2.parent = w.parent
  count : x.2.count = w.count
  hist : ∃ l, x.2.hist = w.hist ++ l
  stdinQ : x.2.stdinQ = w.stdinQ
  nf : ∀ n, x.1 ≠ .exc (.foreign n)
  out : ∃ done stuck ab, w.shellQ = done ++ stuck ++ x.2.shellQ ∧ x.2.out = w.out ++ ab ∧ AbortAll env done ab ∧
    (stuck.length ≤ 1 ∧ ∀ q ∈ stuck, ¬ Abortable env q)

theorem tail_q {env : Env} (hs : Sane env) (silent store : Bool) (line : Int) (code status : Str) (stop : Bool)
    (w : World σ) : TailQ env w ((tailK env silent store line code status stop).run w) := by
  rw [run_tailK]
  have hh : ∃ l, storedHist w.hist silent store line code = w.hist ++ l := by
    unfold storedHist
    split
    · exact ⟨_, rfl⟩
    · exact ⟨[], by simp⟩
  unfold abortK
  split
  · have h := abortQueue_q hs { w with hist := storedHist w.hist silent store line code }
    obtain ⟨done, stuck, ab, e1, e2, e3, e4, _, _, e7⟩ := h.out
    exact ⟨h.core.parent, h.core.count, by rw [h.core.hist]; exact hh, h.core.stdinQ, h.nf,
      ⟨done, stuck, ab, e1, e2, e3, e4, fun q hq => (e7 q hq).1⟩⟩
  · rw [K.run_pure]
    exact ⟨rfl, rfl, hh, rfl, by simp, ⟨[], [], [], by simp, by simp, .nil, by simp⟩⟩

theorem HOk.bind_ans {env : Env} {t : String} {c : Chan} (ht : replyType .execute = some t) {α : Type}
    {m : K (World σ) α} {g : α → K (World σ) Unit}
    (hm : AnsOk env .execute (lit t) c m) (hg : ∀ a w, TailQ env w ((g a).run w)) : HOk env .execute c (m >>= g) := by
  intro w
  rw [K.run_bind]
  have hx := hm w
  generalize m.run w = x at hx ⊢
  obtain ⟨y, w₁⟩ := x
  obtain ⟨pre, rep, he, hp, hl, hr, ho, hno, hf⟩ := hx.out
  have hbad : ∀ z : Res Unit, rep = [] → ForeignOk pre z → HQ env .execute c w (z, w₁) := by
    intro z hrep hz
    subst hrep
    exact ⟨hx.parent, fun h => absurd rfl h, ⟨[], by simpa using hx.hist, by simp⟩, hx.stdinQ,
      ⟨pre, [], [], [], [], by simpa using he, hp, by simp, by simp, by simpa using hx.shellQ.symm, .nil, by simp,
        by simp, hz, fun _ _ => ⟨rfl, rfl⟩⟩⟩
  cases y with
  | ok a =>
    rw [K.andThen_ok]
    have h2 := hg a w₁
    obtain ⟨u₁, hu₁⟩ := hx.stdinQ
    obtain ⟨l, hl₂⟩ := h2.hist
    obtain ⟨done, stuck, ab, e1, e2, e3, e4⟩ := h2.out
    have hpar : w₁.parent = w.parent := hx.parent
    have hhist : w₁.hist = w.hist := hx.hist
    have hsq : w₁.shellQ = w.shellQ := hx.shellQ
    simp only at he hu₁ hf
    refine ⟨h2.parent.trans hx.parent, fun h => absurd rfl h, ⟨l, by rw [hl₂, hhist], fun h => absurd rfl h⟩,
      ⟨u₁, by rw [hu₁, h2.stdinQ]⟩, ⟨pre, rep, ab, done, stuck, by rw [e2, he]; simp, hp, hl,
        fun e he => ⟨t, ht, hr e he⟩, by rw [← hsq, e1], e3, e4, fun h => absurd rfl h, ⟨?_, ?_⟩,
        fun n hn => absurd hn (h2.nf n)⟩⟩
    · intro n hn; exact absurd hn (h2.nf n)
    · intro n hn
      rcases hf.2 n hn with h | ⟨_, h⟩ <;> simp at h
  | exc e =>
    rw [K.andThen_exc]
    exact hbad _ (hno (by simp)) ⟨fun n hn => hf.1 n (by simpa using hn), fun n hn => by simpa using hf.2 n hn⟩
  | ub s =>
    rw [K.andThen_ub]
    exact hbad _ (hno (by simp)) ⟨by simp, by simp⟩
  | hang =>
    rw [K.andThen_hang]
    refine hbad _ (hno (by simp)) ⟨by simp, fun n hn => ?_⟩
    rcases hf.2 n hn with h | ⟨_, h⟩ <;> simp at h

theorem HOk.catchStd {env : Env} {r : Req} {c : Chan} {m : K (World σ) Unit} (h : HOk env r c m) :
    HOk env r c (m.catchStd fun _ => Pure.pure ()) := by
  intro w
  have hx := h w
  simp only [K.catchStd, K.run_bind, K.run_attempt]
  generalize m.run w = x at hx ⊢
  obtain ⟨y, w₁⟩ := x
  cases y with
  | ok a => simpa only [K.captured_ok, K.andThen_ok, K.run_pure] using hx
  | exc e =>
    simp only [K.captured_exc, K.andThen_ok]
    by_cases he : e.isStd = true
    · simp only [he, if_true, K.run_pure]
      obtain ⟨pre, rep, ab, done, stuck, a1, a2, a3, a4, a5, a6, a7, a8, a9, _⟩ := hx.out
      refine ⟨hx.parent, hx.count, hx.hist, hx.stdinQ, ⟨pre, rep, ab, done, stuck, a1, a2, a3, a4, a5, a6, a7, a8,
        ⟨by simp, fun n hn => ?_⟩, by simp⟩⟩
      rcases a9.2 n hn with h | ⟨_, h⟩
      · simp at h; subst h; simp [Exc.isStd] at he
      · simp at h
    · have he' : e.isStd = false := by simpa using he
      simpa only [he', Bool.false_eq_true, if_false, K.run_throw] using hx
  | ub s => simpa only [K.captured_ub, K.andThen_ub] using hx
  | hang => simpa only [K.captured_hang, K.andThen_hang] using hx

section
variable {env : Env} (hs : Sane env) (I : Interp σ) (m : XMessage) (c : Chan)
include hs

theorem h_executeBody : HOk env .execute c (executeBody env I m c) :=
  HOk.bind_pre (PreOk.ofRes (nf_value_str _ _ _)) fun _ => HOk.bind_pre (PreOk.ofRes (nf_value_bool _ _ _)) fun _ =>
    HOk.bind_pre (PreOk.ofRes (nf_value_bool _ _ _)) fun _ => HOk.bind_pre (PreOk.ofRes (nf_value_int _ _ _)) fun _ =>
    HOk.bind_pre (PreOk.ofRes (nf_value_json _ _ _)) fun _ => HOk.bind_pre (PreOk.ofRes (nf_value_bool _ _ _)) fun _ =>
    HOk.bind_pre (PreOk.ofRes (nf_value_bool _ _ _)) fun _ => HOk.bind_pre (PreOk.getMetadata env _) fun _ =>
    HOk.bind_pre (pre_interpExecute hs I _ _ _ _ _) fun _ => HOk.bind_pre (PreOk.ofRes (nf_value_str _ _ _)) fun _ =>
    HOk.bind_ans rfl (AnsOk.sendReply hs.log _ _ _ _ _) fun _ => tail_q hs _ _ _ _ _ _

theorem h_handle (r : Req) : HOk env r c (handle env I r m c) := by
  cases r with
  | execute => exact HOk.catchStd (h_executeBody hs I m c)
  | complete => exact fun w => HQ.of_ans rfl (ans_complete hs I m c w)
  | inspect => exact fun w => HQ.of_ans rfl (ans_inspect hs I m c w)
  | history => exact fun w => HQ.of_ans rfl (ans_history hs m c w)
  | isComplete => exact fun w => HQ.of_ans rfl (ans_isComplete hs I m c w)
  | commInfo => exact fun w => HQ.of_ans rfl (ans_commInfo hs m c w)
  | commOpen => exact fun w => HQ.of_pre c (pre_commOpen hs I m w)
  | commClose => exact fun w => HQ.of_pre c (pre_commClose hs I m w)
  | commMsg => exact fun w => HQ.of_pre c (pre_commMsg hs I m w)
  | kernelInfo => exact fun w => HQ.of_ans rfl (ans_kernelInfo hs I c w)
  | shutdown => exact fun w => HQ.of_ans rfl (ans_shutdown hs I m c w)
  | interrupt => exact fun w => HQ.of_ans rfl (ans_interrupt hs c w)
  | debug =>
    cases hd : I.debug with
    | none =>
      intro w
      have : handle env I .debug m c = pure () := by simp only [handle, debugRequest, hd]
      rw [this]
      exact HQ.of_pre c (PreOk.pure () w)
    | some d => exact fun w => HQ.of_ans rfl (ans_debug hs I m c hd w)

end

/-! ## Dispatch -/

/-- State after `busy` was announced for a message. -/
structure Begun (env : Env) (m : XMessage) (c : Chan) (w w₀ : World σ) : Prop where
  parent : w₀.parent = fun c' => if c' = c then ⟨m.ids, m.body.header⟩ else w.parent c'
  st : w₀.st = w.st
  count : w₀.count = w.count
  input : w₀.input = w.input
  hist : w₀.hist = w.hist
  comm : w₀.comm = w.comm
  shellQ : w₀.shellQ = w.shellQ
  stdinQ : w₀.stdinQ = w.stdinQ
  guids : w₀.guids = w.guids + 1
  clocks : w₀.clocks = w.clocks + 1
  out : ∃ b, IsStatus env c "busy" m.body.header b ∧ w₀.out = w.out ++ [b]

theorem Begun.cur {env : Env} {m : XMessage} {c : Chan} {w w₀ : World σ} (h : Begun env m c w w₀) :
    w₀.parent c = ⟨m.ids, m.body.header⟩ := by rw [h.parent]; simp

theorem publishStatus_ok {env : Env} (hs : Sane env) {s : String} (hu : Utf8 (lit s)) {c : Chan} {w : World σ}
    (hp : Parsed (w.parent c).header) :
    ∃ e, IsStatus env c s (w.parent c).header e ∧
      (publishStatus env (lit s) c).run w = (.ok (), { tick w with out := w.out ++ [e] }) := by
  obtain ⟨wire, _, h⟩ := publishMessage_ok hs (type := lit "status") (metadata := .obj [])
    (content := .obj [(lit "execution_state", .str (lit s))]) [] (c := c) (w := w) hp (utf8_lit (by decide))
    (emptyObj_printable _) (obj1_printable (utf8_lit (by decide)) (str_printable fun _ => hu))
  exact ⟨_, ⟨_, wire, rfl, hdrAt_wf env w _, rfl, rfl, rfl, rfl⟩, h⟩

/-- Dispatch of an accepted message, up to the reading of its type. -/
theorem dispatch_begin {env : Env} (hs : Sane env) (I : Interp σ) {q : Multipart} {m : XMessage} (c : Chan)
    (ha : Accepted env.C env.J env.auth q m) (w : World σ) :
    ∃ w₀, Begun env m c w w₀ ∧ (dispatch env I q c).run w =
      K.andThen (m.body.header.value (lit "msg_type") Json.getStr [], w₀) fun t w' =>
      K.andThen ((handleType env I t m c).run w') fun _ w' => (publishStatus env (lit "idle") c).run w' := by
  have hp := (accepted_parsed hs ha).1
  obtain ⟨b, hb, hrun⟩ := publishStatus_ok hs (s := "busy") (utf8_lit (by decide)) (c := c)
    (w := { w with parent := fun c' => if c' = c then ⟨m.ids, m.body.header⟩ else w.parent c' }) (by simpa using hp)
  refine ⟨{ tick { w with parent := fun c' => if c' = c then ⟨m.ids, m.body.header⟩ else w.parent c' } with
    out := w.out ++ [b] }, ⟨rfl, rfl, rfl, rfl, rfl, rfl, rfl, rfl, rfl, rfl, ⟨b, by simpa using hb, rfl⟩⟩, ?_⟩
  simp only [dispatch, K.run_bind, K.run_attempt, K.run_ofRes, accepted_ok _ _ _ _ _ ha, K.captured_ok, K.andThen_ok,
    dispatchMsg, run_logK, hs.log, run_setParent]
  rw [hrun, K.andThen_ok]

/-- The end of a dispatch. -/
theorem dispatch_end {env : Env} (hs : Sane env) {q : Multipart} {m : XMessage} {c : Chan}
    (ha : Accepted env.C env.J env.auth q m) {w : World σ} (hp : w.parent c = ⟨m.ids, m.body.header⟩) :
    ∃ e, IsStatus env c "idle" m.body.header e ∧
      (publishStatus env (lit "idle") c).run w = (.ok (), { tick w with out := w.out ++ [e] }) := by
  have := publishStatus_ok hs (s := "idle") (utf8_lit (by decide)) (c := c) (w := w)
    (by rw [hp]; exact (accepted_parsed hs ha).1)
  rwa [hp] at this

theorem getHandler_some {t : Str} {r : Req} (h : getHandler t = some r) : t = lit (requestType r) := by
  unfold getHandler handlerTable at h
  repeat
    rw [alGet] at h
    split at h
    · rename_i he
      simp at h
      subst h
      simpa [requestType] using he.symm
  simp [alGet] at h

theorem getHandler_req (r : Req) : getHandler (lit (requestType r)) = some r := by
  cases r <;> decide

end Xeus
