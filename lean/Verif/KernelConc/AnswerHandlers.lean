import Verif.KernelConc.Answers

/-!
# Replies of handlers under interference (no property statements here)
-/

namespace Xeus

open Spec K

variable {σ : Type}

/-! ## Sending -/

section
variable {t : Chan} {A : World σ → Prop} {env : Env}

/-- A header as made by `make_header`. -/
def MadeBy (env : Env) (type : Str) (h : Json) : Prop :=
  ∃ g n, h = headerOf (newXguid (env.guid g)) env.user env.session (env.now n) type

theorem MadeBy.wf {type : Str} {h : Json} (hm : MadeBy env type h) : WfHeader env type h := by
  obtain ⟨g, n, rfl⟩ := hm
  exact ⟨_, _, rfl⟩

theorem MadeBy.printable (hs : Sane env) {type : Str} {h : Json} (hm : MadeBy env type h) (ht : env.eh = .strict → Utf8 type) :
    Printable env.eh h := by
  obtain ⟨g, n, rfl⟩ := hm
  exact ⟨headerOf_canon .., fun he => headerOf_utf8 (hexString_utf8 _) (hs.user he) (hs.session he) (hs.now he _) (ht he)⟩

theorem mute_makeHeader (type : Str) :
    Mute t A (fun es r => es = [] ∧ ∃ h, r = .ok h ∧ MadeBy env type h) (makeHeader env type : K (World σ) Json) := by
  refine Mute.bind (R := fun es r => es = [] ∧ ∃ g, r = .ok (newXguid (env.guid g))) ?_ (fun _ _ h => by
    obtain ⟨_, _, h⟩ := h; cases h) fun es id h => ?_
  · exact Mute.lift (fun _ => rfl) (fun _ => rfl) (fun _ => rfl) (fun _ h => h)
      (fun w a _ h => by cases h; exact ⟨rfl, _, rfl⟩) fun _ _ _ h => by cases h
  obtain ⟨rfl, g, hg⟩ := h
  cases hg
  refine Mute.bind (R := fun es r => es = [] ∧ ∃ n, r = .ok (env.now n)) ?_ (fun _ _ h => by
    obtain ⟨_, _, h⟩ := h; cases h) fun es date h => ?_
  · exact Mute.lift (fun _ => rfl) (fun _ => rfl) (fun _ => rfl) (fun _ h => h)
      (fun w a _ h => by cases h; exact ⟨rfl, _, rfl⟩) fun _ _ _ h => by cases h
  obtain ⟨rfl, n, hn⟩ := h
  cases hn
  exact Mute.pure ⟨rfl, _, rfl, g, n, headerJson_eq ..⟩

theorem wp_sendReplyTo (hs : Sane env) {ids : List Str} {type : Str} {parent md ct : Json} {c : Chan} (hp : Parsed parent)
    (hmd : Printable env.eh md) (tr : List Act) :
    Wp t A tr (fun tr' r =>
      (∃ m wire, r = .ok () ∧ tr' = tr ++ [.did t (.reply c m wire)] ∧ m.ids = ids ∧ m.body.parent = parent ∧
        WfHeader env type m.body.header ∧ m.body.metadata = md ∧ m.body.content = ct ∧ m.body.buffers = [] ∧
        (env.eh = .strict → Utf8 type)) ∨
      (∃ e, r = .error e ∧ tr' = tr ∧ ((env.eh = .strict → Utf8 type) → ¬ Printable env.eh ct)))
      (sendReplyTo env ids type parent md ct c : K (World σ) Unit) := by
  refine Wp.bind ((mute_makeHeader type tr).mono ?_)
  rintro tr' r ⟨es, rfl, _, rfl, h, rfl, hm⟩
  simp only [List.map_nil, List.append_nil]
  refine Wp.bind (Wp.ofRes (fun _ _ => ?_) fun e he => by rw [hs.log] at he; cases he)
  refine Wp.bind (Wp.ofRes (fun wire hw => ?_) fun e he => ?_)
  · refine Wp.emit (.inl ⟨_, wire, rfl, rfl, rfl, rfl, hm.wf, rfl, rfl, rfl, fun he => ?_⟩)
    obtain ⟨g, n, rfl⟩ := hm
    by_cases hu : JsonUtf8 (headerOf (newXguid (env.guid g)) env.user env.session (env.now n) type)
    · cases hu with
      | obj _ h2 =>
        have := h2 (lit "msg_type", .str type) (by simp)
        cases this with | str h => exact h
    · exfalso
      have hd : env.J.dump .strict (headerOf (newXguid (env.guid g)) env.user env.session (env.now n) type) = none :=
        hs.codec.dump_strict _ hu
      rw [he] at hw
      simp [serialize, serializeBase, Codec.writeZmq, hd] at hw
  · refine .inr ⟨e, rfl, rfl, fun ht hc => ?_⟩
    obtain ⟨wire, hw⟩ := serialize_ok (C := env.C) hs.codec env.auth (eh := env.eh)
      (m := ⟨ids, ⟨h, parent, md, ct, []⟩⟩) (hm.printable hs ht) (Parsed.printable hp env.eh) hmd hc
    rw [hw] at he; cases he

end

/-! ## Aborting the queue -/

section
variable {t : Chan} {A : World σ → Prop} {env : Env}

theorem drainedBy_append (t : Chan) (a b : List Act) : drainedBy t (a ++ b) = drainedBy t a ++ drainedBy t b := by
  induction a with
  | nil => rfl
  | cons x a ih =>
    cases x with
    | drained t' q => simp only [List.cons_append, drainedBy, ih]; split <;> rfl
    | _ => exact ih

/-- What happens while the queue is aborted: messages are taken, each followed by its reply if it gets one. -/
def Aborting (env : Env) (t : Chan) (ls : List Act) : Prop :=
  ∃ done stuck ab, eventsOf t ls = ab ∧ repliesIn ab = ab ∧ drainedBy t ls = done ++ stuck ∧ AbortAll env done ab ∧
    stuck.length ≤ 1 ∧ ∀ x ∈ stuck, ¬ Abortable env x

theorem Aborting.nil : Aborting env t [] := ⟨[], [], [], rfl, rfl, rfl, .nil, by simp, by simp⟩

theorem Aborting.stuck {q : Multipart} (hq : ¬ Abortable env q) : Aborting env t [.drained t q] :=
  ⟨[], [q], [], rfl, rfl, by simp [drainedBy], .nil, by simp, by simpa using hq⟩

theorem Aborting.dropped {q : Multipart} {ls : List Act} (hq : Refused env.C env.J env.auth q) (h : Aborting env t ls) :
    Aborting env t (.drained t q :: ls) := by
  obtain ⟨done, stuck, ab, h1, h2, h3, h4, h5⟩ := h
  exact ⟨q :: done, stuck, ab, h1, h2, by simp [drainedBy, h3], .dropped hq h4, h5⟩

theorem Aborting.answered {q : Multipart} {m : XMessage} {e : Ev} {ls : List Act} (ha : Accepted env.C env.J env.auth q m)
    (he : IsAbortReply env m e) (h : Aborting env t ls) : Aborting env t (.drained t q :: .did t e :: ls) := by
  obtain ⟨done, stuck, ab, h1, h2, h3, h4, h5⟩ := h
  refine ⟨q :: done, stuck, e :: ab, by simp [eventsOf, h1], ?_, by simp [drainedBy, h3], .answered ha he h4, h5⟩
  obtain ⟨_, _, _, _, _, _, rfl, _⟩ := he
  simp [repliesIn, h2]

theorem wp_abortRequest (hs : Sane env) (q : Multipart) (tr : List Act) :
    Wp t A tr (fun tr' r =>
      (r = .ok () ∧ tr' = tr ∧ Refused env.C env.J env.auth q) ∨
      (r = .ok () ∧ ∃ m e, tr' = tr ++ [.did t e] ∧ Accepted env.C env.J env.auth q m ∧ IsAbortReply env m e) ∨
      (∃ e, r = .error e ∧ tr' = tr ∧ ¬ Abortable env q)) (abortRequest env q : K (World σ) Unit) := by
  unfold abortRequest
  refine Wp.bind (Wp.attempt ?_)
  rcases deserialize_cases env.C env.J env.auth q with ⟨m, ha, hd⟩ | ⟨hr, e, hd, he⟩ | ⟨hu, s, hd⟩
  · have hable : Abortable env q → ∃ t t', typeOf m.body.header = some t ∧ AbortType t t' ∧ (env.eh = .strict → Utf8 t') := by
      rintro (h | ⟨m', ty, ty', ha', h⟩)
      · obtain ⟨e, he, _⟩ := refused_exc _ _ _ _ h
        rw [hd] at he; cases he
      · rw [accepted_ok _ _ _ _ _ ha'] at hd; cases hd; exact ⟨ty, ty', h⟩
    rw [hd]
    refine Wp.ofRes (fun a h => ?_) fun _ h => by cases h
    cases h
    refine Wp.bind (Wp.ofRes (fun ty hty => ?_) fun e he => ?_)
    · refine Wp.bind (Wp.ofRes (fun ty' hty' => ?_) fun e he => ?_)
      · have hct : Printable env.eh (Json.put .null (lit "status") (.str (lit "error"))) :=
          obj1_printable (utf8_lit (by decide)) (str_printable fun _ => utf8_lit (by decide))
        refine (wp_sendReplyTo hs (accepted_parsed hs ha).1 (emptyObj_printable _) tr).mono ?_
        rintro tr' r (⟨m', wire, h1, h2, h3, h4, h5, h6, h7, h8, _⟩ | ⟨e, h1, h2, h3⟩)
        · exact .inr (.inl ⟨h1, m, _, h2, ha, ty, ty', typeOf_value hty, abortName_ok hty', m', wire, rfl, h3, h4, h5, h6, h7, h8⟩)
        · refine .inr (.inr ⟨e, h1, h2, fun hab => ?_⟩)
          obtain ⟨a, b, g1, g2, g3⟩ := hable hab
          rw [typeOf_value hty] at g1
          cases g1
          cases AbortType.unique (abortName_ok hty') g2
          exact h3 g3 hct
      · refine .inr (.inr ⟨e, rfl, rfl, fun hab => ?_⟩)
        obtain ⟨a, b, g1, g2, _⟩ := hable hab
        rw [typeOf_value hty] at g1
        cases g1
        obtain ⟨x, hx⟩ := abortName_some (AbortType.mem g2)
        rw [hx] at he; cases he
    · refine .inr (.inr ⟨e, rfl, rfl, fun hab => ?_⟩)
      obtain ⟨a, b, g1, _⟩ := hable hab
      rw [value_typeOf g1] at he; cases he
  · rw [hd]
    refine Wp.ofRes (fun a h => by cases h) fun _ h => ?_
    cases h
    simp only [he, if_true]
    exact .inl ⟨rfl, rfl, hr⟩
  · rw [hd]; trivial

theorem wp_abortLoop (hs : Sane env) (k : Nat) (tr : List Act) :
    Wp t A tr (fun tr' _ => ∃ ls, tr' = tr ++ ls ∧ Aborting env t ls) (abortLoop env k : K (World σ) Unit) := by
  induction k generalizing tr with
  | zero => exact ⟨[], by simp, .nil⟩
  | succ k ih =>
    unfold abortLoop
    refine Wp.bind ?_
    intro w hw
    cases hq : w.shellQ with
    | nil =>
      have he : entries t w w = [] := entries_silent t rfl rfl
      simp only [hq, he, List.append_nil]
      exact ⟨trivial, fun h => h, fun b hb => by cases hb; exact ⟨[], by simp, .nil⟩, fun _ hb => by cases hb⟩
    | cons q r =>
      have he : entries t w { w with shellQ := r } = [.drained t q] := entries_drain t rfl hq
      simp only [hq, he]
      refine ⟨trivial, fun h => h, fun b hb => ?_, fun _ hb => by cases hb⟩
      cases hb
      refine Wp.bind ((wp_abortRequest hs q _).mono ?_)
      rintro tr' r (⟨rfl, rfl, hr⟩ | ⟨rfl, m, e, rfl, ha, hm⟩ | ⟨e, rfl, rfl, hn⟩)
      · refine (ih _).mono ?_
        rintro tr'' _ ⟨ls, rfl, hl⟩
        exact ⟨.drained t q :: ls, by simp, hl.dropped hr⟩
      · refine (ih _).mono ?_
        rintro tr'' _ ⟨ls, rfl, hl⟩
        exact ⟨.drained t q :: .did t e :: ls, by simp, hl.answered ha hm⟩
      · exact ⟨[.drained t q], rfl, .stuck hn⟩

theorem wp_tail (hs : Sane env) (silent store : Bool) (line : Int) (code status : Str) (stop : Bool) (tr : List Act) :
    Wp t A tr (fun tr' _ => ∃ ls, tr' = tr ++ ls ∧ Aborting env t ls)
      (storeK silent store line code >>= fun _ => abortK env silent status stop : K (World σ) Unit) := by
  have hst : Wp t A tr (fun tr' r => tr' = tr ∧ r = .ok ()) (storeK silent store line code : K (World σ) Unit) := by
    unfold storeK
    split
    · exact Wp.lift (fun _ => rfl) (fun _ => rfl) (fun _ => rfl) (fun _ h => h) (fun w a _ _ => ⟨rfl, rfl⟩)
        fun _ _ _ h => by cases h
    · exact ⟨rfl, rfl⟩
  refine Wp.bind (hst.mono ?_)
  rintro tr' r ⟨rfl, rfl⟩
  show Wp t A _ _ (abortK env silent status stop)
  unfold abortK
  split
  · refine Wp.bind (Wp.lift (fun _ => rfl) (fun _ => rfl) (fun _ => rfl) (fun _ h => h) (fun w a _ _ => ?_)
      fun _ _ _ h => by cases h)
    exact wp_abortLoop hs _ _
  · exact ⟨[], by simp, .nil⟩

end

/-! ## Handlers -/

section
variable {env : Env} {I : Interp σ} {t : Chan} {msg : XMessage} {r : Req} {ob : Prop}

/-- What thread `t` knows while it handles `msg`. -/
def Knows (env : Env) (I : Interp σ) (t : Chan) (msg : XMessage) (r : Req) (ob : Prop) (w : World σ) : Prop :=
  w.parent t = ⟨msg.ids, msg.body.header⟩ ∧ ParentsOk w ∧ InInt w.count ∧ (ob → Obliging env I msg w r)

/-- What a handler did: nothing was replied (and, if the request obliges, user code threw), or one reply was sent, after which
messages may have been aborted by an execute request. -/
def Done (env : Env) (t : Chan) (msg : XMessage) (r : Req) (ob : Prop) (es : List Act) : Prop :=
  (∃ evs, es = evs.map (.did t) ∧ repliesIn evs = [] ∧ (ob → ∃ e, Ev.threw e ∈ evs)) ∨
  (∃ evs rep ls rt, es = evs.map (.did t) ++ .did t rep :: ls ∧ repliesIn evs = [] ∧ replyType r = some rt ∧
    IsReply env t msg.ids msg.body.header (lit rt) rep ∧ Aborting env t ls ∧ (r ≠ .execute → ls = []))

def Ends (env : Env) (I : Interp σ) (t : Chan) (msg : XMessage) (r : Req) (ob : Prop) {α : Type} (m : K (World σ) α) : Prop :=
  ∀ tr, Wp t (Knows env I t msg r ob) tr (fun tr' _ => ∃ es, tr' = tr ++ es ∧ Done env t msg r ob es) m

/-- A program that sends no reply and, if the request obliges, fails only if user code threw. -/
def Calm (env : Env) (I : Interp σ) (t : Chan) (msg : XMessage) (r : Req) (ob : Prop) {α : Type} (P : α → Prop)
    (m : K (World σ) α) : Prop :=
  Mute t (Knows env I t msg r ob)
    (fun es x => (∀ a, x = .ok a → P a) ∧ ∀ e, x = .error e → ob → ∃ y, Ev.threw y ∈ es) m

theorem Ends.bind {α β : Type} {P : α → Prop} {m : K (World σ) α} {g : α → K (World σ) β}
    (h : Calm env I t msg r ob P m) (hg : ∀ a, P a → Ends env I t msg r ob (g a)) : Ends env I t msg r ob (m >>= g) := by
  intro tr
  refine Wp.bind ((h tr).mono ?_)
  rintro tr' x ⟨es, rfl, h1, h2, h3⟩
  cases x with
  | error e => exact ⟨_, rfl, .inl ⟨es, rfl, h1, h3 e rfl⟩⟩
  | ok a =>
    refine (hg a (h2 a rfl) _).mono ?_
    rintro tr'' _ ⟨es', rfl, hd⟩
    refine ⟨es.map (.did t) ++ es', by simp, ?_⟩
    rcases hd with ⟨evs, rfl, g1, g2⟩ | ⟨evs, rep, ls, rt, rfl, g1, g2⟩
    · refine .inl ⟨es ++ evs, by simp, by rw [repliesIn_app, h1, g1]; rfl, fun ho => ?_⟩
      obtain ⟨e, he⟩ := g2 ho
      exact ⟨e, List.mem_append_right _ he⟩
    · exact .inr ⟨es ++ evs, rep, ls, rt, by simp, by rw [repliesIn_app, h1, g1]; rfl, g2⟩

theorem Ends.catchStd {m : K (World σ) Unit} (h : Ends env I t msg r ob m) :
    Ends env I t msg r ob (K.catchStd m fun _ => pure ()) := by
  intro tr
  refine Wp.bind (Wp.attempt ((h tr).mono ?_))
  rintro tr' x hx
  cases x with
  | ok a => exact hx
  | error e =>
    show Wp _ _ _ _ (if e.isStd then _ else _)
    split
    · exact hx
    · exact hx

theorem Ends.mutes {α : Type} {m : K (World σ) α} (hn : ¬ ob) (h : Mutes t (Knows env I t msg r ob) m) : Ends env I t msg r ob m := by
  intro tr
  refine (h tr).mono ?_
  rintro tr' x ⟨es, rfl, h1, _⟩
  exact ⟨_, rfl, .inl ⟨es, rfl, h1, fun h => absurd h hn⟩⟩

theorem Calm.ofRes {α : Type} {P : α → Prop} {x : Res α} (h1 : ∀ a, x = .ok a → P a) (h2 : ob → ∃ a, x = .ok a) :
    Calm env I t msg r ob P (K.ofRes x : K (World σ) α) := by
  refine Mute.ofRes (fun a h => ⟨fun _ h' => by cases h'; exact h1 a h, fun _ h' => by cases h'⟩)
    fun e h => ⟨fun _ h' => (by cases h'), fun _ _ ho => ?_⟩
  obtain ⟨a, ha⟩ := h2 ho
  rw [ha] at h; cases h

theorem Calm.readR {α : Type} {P : α → Prop} {f : World σ → Res α}
    (h1 : ∀ w a, Knows env I t msg r ob w → f w = .ok a → P a) (h2 : ∀ w, Knows env I t msg r ob w → ob → ∃ a, f w = .ok a) :
    Calm env I t msg r ob P (K.readR f) := by
  refine Mute.readR (fun w a hw h => ⟨fun _ h' => by cases h'; exact h1 w a hw h, fun _ h' => by cases h'⟩)
    fun w e hw h => ⟨fun _ h' => (by cases h'), fun _ _ ho => ?_⟩
  obtain ⟨a, ha⟩ := h2 w hw ho
  rw [ha] at h; cases h

theorem Calm.read {α : Type} {P : α → Prop} {f : World σ → α} (h1 : ∀ w, Knows env I t msg r ob w → P (f w)) :
    Calm env I t msg r ob P (K.read f) :=
  Mute.read fun w hw => ⟨fun _ h' => by cases h'; exact h1 w hw, fun _ h' => by cases h'⟩

theorem Calm.call {Ω α : Type} {P : α → Prop} {sem : Ω → K (World σ) Val} (hs : ∀ o, Mutes t (Knows env I t msg r ob) (sem o))
    (k : Call) {q : Prog σ Ω α} (hq : ob → Yields P q) :
    Calm env I t msg r ob (fun a => ob → P a) (userCall sem k q) := by
  by_cases ho : ob
  · exact (mute_userCall hs k (hq ho)).mono fun es x h => ⟨fun a ha _ => h.1 a ha, fun e he _ => h.2 e he⟩
  · exact (mute_userCall hs k (yields_true q)).mono fun es x h =>
      ⟨fun a ha h => absurd h ho, fun e he _ => h.2 e he⟩

theorem Calm.bind {α β : Type} {P : α → Prop} {Q : β → Prop} {m : K (World σ) α} {g : α → K (World σ) β}
    (h : Calm env I t msg r ob P m) (hg : ∀ a, P a → Calm env I t msg r ob Q (g a)) : Calm env I t msg r ob Q (m >>= g) := by
  refine Mute.bind h (fun es e h => ⟨fun _ h' => (by cases h'), fun e' h' => by cases h'; exact h.2 e rfl⟩) fun es a h => ?_
  refine (hg a (h.1 a rfl)).mono fun es' x h' => ⟨h'.1, fun e he ho => ?_⟩
  obtain ⟨y, hy⟩ := h'.2 e he ho
  exact ⟨y, List.mem_append_right _ hy⟩

theorem Calm.mono {α : Type} {P Q : α → Prop} {m : K (World σ) α} (h : Calm env I t msg r ob P m) (hp : ∀ a, P a → Q a) :
    Calm env I t msg r ob Q m := Mute.mono h fun _ _ h => ⟨fun a ha => hp a (h.1 a ha), h.2⟩

theorem Calm.pure {α : Type} {P : α → Prop} {a : α} (h : P a) : Calm env I t msg r ob P (Pure.pure a : K (World σ) α) :=
  Mute.pure ⟨fun _ h' => by cases h'; exact h, fun _ h' => by cases h'⟩

theorem Calm.emit {e : Ev} (hr : repliesIn [e] = []) : Calm env I t msg r ob (fun _ => True) (emit e : K (World σ) Unit) :=
  Mute.emit hr ⟨fun _ _ => trivial, fun _ h' => by cases h'⟩

theorem Calm.publish (hs : Sane env) {type : Str} {ct : Json} (ht : env.eh = .strict → Utf8 type)
    (hc : ob → Printable env.eh ct) (c : Chan) :
    Calm env I t msg r ob (fun _ => True) (publishMessage env type (.obj []) ct [] c : K (World σ) Unit) := by
  refine Calm.bind (P := MadeBy env type) ?_ fun h hm => ?_
  · refine (mute_makeHeader type).mono ?_
    rintro es x ⟨_, h, rfl, hm⟩
    exact ⟨fun a ha => by cases ha; exact hm, fun _ h' => by cases h'⟩
  refine Calm.bind (P := fun p => Parsed p) (Calm.read fun w hw => hw.2.1 c) fun p hp => ?_
  refine Calm.bind (P := fun _ => True) (Calm.ofRes (fun _ _ => trivial) fun _ => ⟨(), hs.log _⟩) fun _ _ => ?_
  refine Calm.bind (P := fun _ => True) (Calm.ofRes (fun _ _ => trivial) fun ho => ?_) fun wire _ => Calm.emit rfl
  exact serializePub_ok (C := env.C) hs.codec env.auth (eh := env.eh) (hm.printable hs ht) (Parsed.printable hp env.eh)
    (emptyObj_printable _) (hc ho)

theorem calm_getMetadata (hs : Sane env) : Calm env I t msg r ob (Printable env.eh) (getMetadata env : K (World σ) Json) := by
  refine Calm.bind (P := fun d => env.eh = .strict → Utf8 d) ?_ fun d hd => ?_
  · exact Mute.lift (fun _ => rfl) (fun _ => rfl) (fun _ => rfl) (fun _ h => h)
      (fun w a _ h => by cases h; exact ⟨fun _ h' => by cases h'; exact fun he => hs.now he _, fun _ h' => by cases h'⟩)
      fun _ _ _ h => by cases h
  · exact Calm.pure (obj1_printable (utf8_lit (by decide)) (str_printable hd))

theorem wp_sendReply (hs : Sane env) (hp : Parsed msg.body.header) {type : Str} {md ct : Json} (ht : env.eh = .strict → Utf8 type)
    (hmd : Printable env.eh md) (hc : ob → Printable env.eh ct) (tr : List Act) :
    Wp t (Knows env I t msg r ob) tr (fun tr' x =>
      (∃ rep, x = .ok () ∧ tr' = tr ++ [.did t rep] ∧ IsReply env t msg.ids msg.body.header type rep) ∨
      (¬ ob ∧ ∃ e, x = .error e ∧ tr' = tr)) (sendReply env type md ct t : K (World σ) Unit) := by
  refine Wp.bind (Wp.lift (fun _ => rfl) (fun _ => rfl) (fun _ => rfl) (fun _ h => h) (fun w a hw h => ?_)
    fun _ _ _ h => by cases h)
  have h1 : a = msg.ids := by cases h; exact congrArg Parent.ids hw.1
  subst h1
  refine Wp.bind (Wp.lift (fun _ => rfl) (fun _ => rfl) (fun _ => rfl) (fun _ h => h) (fun w a hw h => ?_)
    fun _ _ _ h => by cases h)
  have h1 : a = msg.body.header := by cases h; exact congrArg Parent.header hw.1
  subst h1
  refine (wp_sendReplyTo hs hp hmd tr).mono ?_
  rintro tr' x (⟨m', wire, h1, h2, h3, h4, h5, h6, h7, h8, _⟩ | ⟨e, h1, h2, h3⟩)
  · exact .inl ⟨_, h1, h2, m', wire, rfl, h3, h4, h5, h8⟩
  · exact .inr ⟨fun ho => h3 ht (hc ho), e, h1, h2⟩

theorem ends_sendReply (hs : Sane env) (hp : Parsed msg.body.header) {rt : String} (hr : replyType r = some rt)
    {md ct : Json} (hmd : Printable env.eh md) (hc : ob → Printable env.eh ct) :
    Ends env I t msg r ob (sendReply env (lit rt) md ct t : K (World σ) Unit) := by
  have ht : Utf8 (lit rt) := by cases r <;> cases hr <;> exact utf8_lit (by decide)
  intro tr
  refine (wp_sendReply hs hp (fun _ => ht) hmd hc tr).mono ?_
  rintro tr' x (⟨rep, rfl, rfl, h⟩ | ⟨hn, e, rfl, rfl⟩)
  · exact ⟨[.did t rep], rfl, .inr ⟨[], rep, [], rt, rfl, rfl, hr, h, .nil, fun _ => rfl⟩⟩
  · exact ⟨[], by simp, .inl ⟨[], rfl, rfl, fun h => absurd h hn⟩⟩

theorem calm_announce (hs : Sane env) {code : Str} (hu : ob → Utf8 code) (silent : Bool) :
    Calm env I t msg r ob (fun _ => True) (announce env code silent : K (World σ) Unit) := by
  have hadd : ∀ n, (intAdd n 1 = .ok (n + 1) ∧ InInt (n + 1)) ∨ ∃ s, intAdd n 1 = .ub s := by
    intro n
    unfold intAdd
    split
    · rename_i h; exact .inl ⟨rfl, h⟩
    · exact .inr ⟨_, rfl⟩
  unfold announce
  split
  · refine Calm.bind (P := fun _ => True) ?_ fun _ _ => ?_
    · refine Mute.lift ?_ ?_ ?_ ?_ ?_ ?_ <;> intro w
      · rcases hadd w.count with ⟨h, _⟩ | ⟨s, h⟩ <;> rw [h]
      · rcases hadd w.count with ⟨h, _⟩ | ⟨s, h⟩ <;> rw [h]
      · rcases hadd w.count with ⟨h, _⟩ | ⟨s, h⟩ <;> rw [h]
      · rcases hadd w.count with ⟨h, hi⟩ | ⟨s, h⟩ <;> rw [h]
        · exact fun _ => hi
        · exact fun h => h
      · exact fun _ _ _ => ⟨fun _ _ => trivial, fun _ h' => by cases h'⟩
      · intro e _ he
        rcases hadd w.count with ⟨h, hi⟩ | ⟨s, h⟩ <;> rw [h] at he <;> cases he
    · refine Calm.bind (P := InInt) (Calm.read fun w hw => hw.2.2.1) fun n hn => ?_
      refine Calm.publish hs (fun _ => utf8_lit (by decide)) (fun ho => ?_) _
      show Printable env.eh ((Json.put .null (lit "code") (.str code)).put (lit "execution_count") (.int n))
      exact printable_put (printable_put ⟨by decide, fun _ => .null⟩ (utf8_lit (by decide)) (str_printable fun _ => hu ho))
        (utf8_lit (by decide)) (int_printable hn)
  · exact Calm.pure trivial

theorem calm_str {c : Json} {k d : String} (h : ob → c.isObj = true ∧ ∃ s, strField c k d = some s) :
    Calm env I t msg r ob (fun s => strField c k d = some s) (K.ofRes (c.value (lit k) Json.getStr (lit d)) : K (World σ) Str) :=
  Calm.ofRes (fun _ ha => (value_str_ok.1 ha).2) fun ho => (h ho).2.imp fun _ hs => value_str_ok.2 ⟨(h ho).1, hs⟩

theorem calm_bool {c : Json} {k : String} {d : Bool} (h : ob → c.isObj = true ∧ ∃ s, boolField c k d = some s) :
    Calm env I t msg r ob (fun s => boolField c k d = some s) (K.ofRes (c.value (lit k) Json.getBool d) : K (World σ) Bool) :=
  Calm.ofRes (fun _ ha => (value_bool_ok.1 ha).2) fun ho => (h ho).2.imp fun _ hs => value_bool_ok.2 ⟨(h ho).1, hs⟩

theorem calm_int {c : Json} {k : String} {d : Int} (h : ob → c.isObj = true ∧ ∃ s, intField c k d = some s) :
    Calm env I t msg r ob (fun s => intField c k d = some s) (K.ofRes (c.value (lit k) Json.getInt d) : K (World σ) Int) :=
  Calm.ofRes (fun _ ha => (value_int_ok.1 ha).2) fun ho => (h ho).2.imp fun _ hs => value_int_ok.2 ⟨(h ho).1, hs⟩

theorem ends_execute (hs : Sane env) (hp : Parsed msg.body.header) (hct : Parsed msg.body.content)
    (hob : ob → ∃ w₀ : World σ, Obliging env I msg w₀ .execute) :
    Ends env I t msg .execute ob (executeRequest env I msg t) := by
  refine Ends.catchStd ?_
  have hf : ob → ∃ code silent store line allow stop, msg.body.content.isObj = true ∧
      strField msg.body.content "code" "" = some code ∧ boolField msg.body.content "silent" false = some silent ∧
      boolField msg.body.content "store_history" true = some store ∧
      intField msg.body.content "execution_count" 1 = some line ∧
      boolField msg.body.content "allow_stdin" true = some allow ∧
      boolField msg.body.content "stop_on_error" false = some stop ∧
      ∀ n, Yields (fun j => (j.isObj = true ∨ j = .null) ∧ Printable env.eh j ∧ ∃ s, strField j "status" "error" = some s)
        (I.execute n code silent (store && !silent) (jsonField msg.body.content "user_expressions" (.obj [])) allow) := by
    intro ho
    obtain ⟨_, f, hf, hy⟩ := hob ho
    unfold execFields at hf
    split at hf
    · rename_i hobj
      simp only [Option.bind_eq_bind, Option.bind_eq_some_iff, Option.pure_def, Option.some.injEq] at hf
      obtain ⟨code, h1, silent, h2, store, h3, line, h4, allow, h5, stop, h6, rfl⟩ := hf
      exact ⟨code, silent, store, line, allow, stop, hobj, h1, h2, h3, h4, h5, h6, hy⟩
    · cases hf
  unfold executeBody
  refine Ends.bind (calm_str (k := "code") (d := "") fun ho => ?_) fun code h1 => ?_
  · obtain ⟨a, b, c, d, e, f, g0, g1, g2, g3, g4, g5, g6, g7⟩ := hf ho; exact ⟨g0, _, g1⟩
  refine Ends.bind (calm_bool (k := "silent") fun ho => ?_) fun silent h2 => ?_
  · obtain ⟨a, b, c, d, e, f, g0, g1, g2, g3, g4, g5, g6, g7⟩ := hf ho; exact ⟨g0, _, g2⟩
  refine Ends.bind (calm_bool (k := "store_history") fun ho => ?_) fun store h3 => ?_
  · obtain ⟨a, b, c, d, e, f, g0, g1, g2, g3, g4, g5, g6, g7⟩ := hf ho; exact ⟨g0, _, g3⟩
  refine Ends.bind (calm_int (k := "execution_count") fun ho => ?_) fun line h4 => ?_
  · obtain ⟨a, b, c, d, e, f, g0, g1, g2, g3, g4, g5, g6, g7⟩ := hf ho; exact ⟨g0, _, g4⟩
  refine Ends.bind (P := fun j => ob → j = jsonField msg.body.content "user_expressions" (.obj []))
    (Calm.ofRes (fun a ha ho => ?_) fun ho => ?_) fun exprs h0 => ?_
  · obtain ⟨_, _, _, _, _, _, g0, _⟩ := hf ho
    rw [jsonField_value g0] at ha; cases ha; rfl
  · obtain ⟨_, _, _, _, _, _, g0, _⟩ := hf ho
    exact ⟨_, jsonField_value g0⟩
  refine Ends.bind (calm_bool (k := "allow_stdin") fun ho => ?_) fun allow h5 => ?_
  · obtain ⟨a, b, c, d, e, f, g0, g1, g2, g3, g4, g5, g6, g7⟩ := hf ho; exact ⟨g0, _, g5⟩
  refine Ends.bind (calm_bool (k := "stop_on_error") fun ho => ?_) fun stop h6 => ?_
  · obtain ⟨a, b, c, d, e, f, g0, g1, g2, g3, g4, g5, g6, g7⟩ := hf ho; exact ⟨g0, _, g6⟩
  have hy : ob → ∀ n, Yields (fun j => (j.isObj = true ∨ j = .null) ∧ Printable env.eh j ∧
      ∃ s, strField j "status" "error" = some s) (I.execute n code silent (store && !silent) exprs allow) := by
    intro ho n
    obtain ⟨a, b, c, d, e, f, g0, g1, g2, g3, g4, g5, g6, g7⟩ := hf ho
    have := g7 n
    rw [h1] at g1; cases g1
    rw [h2] at g2; cases g2
    rw [h3] at g3; cases g3
    rw [h5] at g5; cases g5
    rw [h0 ho]; exact this
  refine Ends.bind (calm_getMetadata hs) fun md hmd => ?_
  refine Ends.bind (P := fun j => ob → j.isObj = true ∧ Printable env.eh j ∧ ∃ s, strField j "status" "error" = some s)
    ?_ fun reply hr => ?_
  · unfold interpExecute
    refine Calm.bind (calm_announce hs (fun ho => parsed_str hct (utf8_lit (by decide)) h1) silent) fun _ _ => ?_
    refine Calm.bind (P := fun _ => True) (Calm.read fun _ _ => trivial) fun n _ => ?_
    refine Calm.bind (Calm.call mutes_op _ fun ho => hy ho n) fun reply hr => ?_
    refine Calm.bind (P := InInt) (Calm.read fun w hw => hw.2.2.1) fun n hn => ?_
    refine Calm.ofRes (fun a ha ho => ?_) fun ho => ⟨_, set_eq_put (hr ho).1 _ _⟩
    obtain ⟨g1, g2, s, g3⟩ := hr ho
    rw [set_eq_put g1] at ha
    cases ha
    refine ⟨Json.put_isObj .., printable_put g2 (utf8_lit (by decide)) (int_printable hn), s, ?_⟩
    unfold strField at g3 ⊢
    rw [Json.find?_put, if_neg (by decide)]
    exact g3
  · refine Ends.bind (calm_str (k := "status") (d := "error") fun ho => ⟨(hr ho).1, (hr ho).2.2⟩) fun status _ => ?_
    intro tr
    refine Wp.bind ((wp_sendReply hs hp (fun _ => utf8_lit (by decide)) hmd (fun ho => (hr ho).2.1) tr).mono ?_)
    rintro tr' x (⟨rep, rfl, rfl, h⟩ | ⟨hn, e, rfl, rfl⟩)
    · refine (wp_tail hs silent (store && !silent) line code status stop _).mono ?_
      rintro tr'' _ ⟨ls, rfl, hl⟩
      exact ⟨.did t rep :: ls, by simp, .inr ⟨[], rep, ls, "execute_reply", rfl, rfl, rfl, h, hl, fun h => absurd rfl h⟩⟩
    · exact ⟨[], by simp, .inl ⟨[], rfl, rfl, fun h => absurd h hn⟩⟩

theorem mutes_runHandler {A : World σ → Prop} (h : Option Nat) (m : XMessage) : Mutes t A (runHandler env I h m) := by
  unfold runHandler
  split
  · exact Mutes.pure _
  · exact (mute_userCall mutes_op _ (yields_true _)).mono fun _ _ _ => trivial

theorem ends_handle (hs : Sane env) (hp : Parsed msg.body.header) (hct : Parsed msg.body.content)
    (hob : ob → ∃ w₀ : World σ, Obliging env I msg w₀ r) :
    Ends env I t msg r ob (handle env I r msg t) := by
  cases r with
  | execute => exact ends_execute hs hp hct hob
  | complete =>
    have hf : ob → ∃ code pos, msg.body.content.isObj = true ∧ strField msg.body.content "code" "" = some code ∧
        intField msg.body.content "cursor_pos" (-1) = some pos ∧ Yields (Printable env.eh) (I.complete code pos) := by
      intro ho
      obtain ⟨_, code, pos, h, hy⟩ := hob ho
      unfold completeFields at h
      split at h
      · rename_i hobj
        simp only [Option.bind_eq_bind, Option.bind_eq_some_iff, Option.pure_def, Option.some.injEq, Prod.mk.injEq] at h
        obtain ⟨_, h1, _, h2, rfl, rfl⟩ := h
        exact ⟨_, _, hobj, h1, h2, hy⟩
      · cases h
    refine Ends.bind (calm_str (k := "code") (d := "") fun ho => ?_) fun code h1 => ?_
    · obtain ⟨a, b, g0, g1, g2, g3⟩ := hf ho; exact ⟨g0, _, g1⟩
    refine Ends.bind (calm_int (k := "cursor_pos") fun ho => ?_) fun pos h2 => ?_
    · obtain ⟨a, b, g0, g1, g2, g3⟩ := hf ho; exact ⟨g0, _, g2⟩
    refine Ends.bind (Calm.call (P := Printable env.eh) mutes_op _ fun ho => ?_) fun j hj =>
      ends_sendReply hs hp rfl (emptyObj_printable _) hj
    obtain ⟨a, b, g0, g1, g2, g3⟩ := hf ho
    rw [h1] at g1; cases g1
    rw [h2] at g2; cases g2
    exact g3
  | inspect =>
    have hf : ob → ∃ code pos detail, msg.body.content.isObj = true ∧ strField msg.body.content "code" "" = some code ∧
        intField msg.body.content "cursor_pos" (-1) = some pos ∧ intField msg.body.content "detail_level" 0 = some detail ∧
        Yields (Printable env.eh) (I.inspect code pos detail) := by
      intro ho
      obtain ⟨_, code, pos, detail, h, hy⟩ := hob ho
      unfold inspectFields at h
      split at h
      · rename_i hobj
        simp only [Option.bind_eq_bind, Option.bind_eq_some_iff, Option.pure_def, Option.some.injEq, Prod.mk.injEq] at h
        obtain ⟨_, h1, _, h2, _, h3, rfl, rfl, rfl⟩ := h
        exact ⟨_, _, _, hobj, h1, h2, h3, hy⟩
      · cases h
    refine Ends.bind (calm_str (k := "code") (d := "") fun ho => ?_) fun code h1 => ?_
    · obtain ⟨a, b, c, g0, g1, g2, g3, g4⟩ := hf ho; exact ⟨g0, _, g1⟩
    refine Ends.bind (calm_int (k := "cursor_pos") fun ho => ?_) fun pos h2 => ?_
    · obtain ⟨a, b, c, g0, g1, g2, g3, g4⟩ := hf ho; exact ⟨g0, _, g2⟩
    refine Ends.bind (calm_int (k := "detail_level") fun ho => ?_) fun detail h3 => ?_
    · obtain ⟨a, b, c, g0, g1, g2, g3, g4⟩ := hf ho; exact ⟨g0, _, g3⟩
    refine Ends.bind (Calm.call (P := Printable env.eh) mutes_op _ fun ho => ?_) fun j hj =>
      ends_sendReply hs hp rfl (emptyObj_printable _) hj
    obtain ⟨a, b, c, g0, g1, g2, g3, g4⟩ := hf ho
    rw [h1] at g1; cases g1
    rw [h2] at g2; cases g2
    rw [h3] at g3; cases g3
    exact g4
  | history =>
    refine Ends.bind (P := fun j => ob → Printable env.eh j) (Calm.readR (fun w j hw hj ho => ?_) fun w hw ho => ?_) fun j hj =>
      ends_sendReply hs hp rfl (emptyObj_printable _) hj
    · obtain ⟨j', h1, h2⟩ := hw.2.2.2 ho
      rw [hj] at h1; cases h1; exact h2
    · obtain ⟨j', h1, h2⟩ := hw.2.2.2 ho
      exact ⟨j', h1⟩
  | isComplete =>
    have hf : ob → ∃ code, msg.body.content.isObj = true ∧ strField msg.body.content "code" "" = some code ∧
        Yields (Printable env.eh) (I.isComplete code) := by
      intro ho
      obtain ⟨_, code, h, hy⟩ := hob ho
      unfold codeField at h
      split at h
      · rename_i hobj; exact ⟨_, hobj, h, hy⟩
      · cases h
    refine Ends.bind (calm_str (k := "code") (d := "") fun ho => ?_) fun code h1 => ?_
    · obtain ⟨a, g0, g1, g2⟩ := hf ho; exact ⟨g0, _, g1⟩
    refine Ends.bind (Calm.call (P := Printable env.eh) mutes_op _ fun ho => ?_) fun j hj =>
      ends_sendReply hs hp rfl (emptyObj_printable _) hj
    obtain ⟨a, g0, g1, g2⟩ := hf ho
    rw [h1] at g1; cases g1
    exact g2
  | commInfo =>
    refine Ends.bind (P := fun _ => True) (Calm.ofRes (fun _ _ => trivial) fun ho => ?_) fun wanted _ => ?_
    · obtain ⟨_, ⟨wanted, hw⟩, _⟩ := hob ho
      refine ⟨wanted, ?_⟩
      unfold targetField at hw
      by_cases hnull : msg.body.content = .null
      · rw [if_pos hnull] at hw
        rw [hnull]; simp at hw; simp [Json.isNull, hw]
      · rw [if_neg hnull] at hw
        have : msg.body.content.isNull = false := by
          cases hcc : msg.body.content <;> simp [Json.isNull, hcc] at hnull ⊢
        rw [this]
        split at hw
        · rename_i ho
          exact strField_value (d := "") ho hw
        · simp at hw
    refine Ends.bind (P := fun l => ob → env.eh = .strict → ∀ x ∈ l, Utf8 x.1 ∧ Utf8 x.2)
      (Calm.readR (fun w l hw hl ho => ?_) fun w hw ho => ?_) fun l hl => ?_
    · obtain ⟨_, hlive, hu⟩ := hw.2.2.2 ho
      obtain ⟨names, hn, hk, hg⟩ := listing_ok hlive.2
      rw [hn] at hl
      cases hl
      intro he x hx
      refine hu he x.1 x.2 ?_
      have hnd : (l.map (·.1)).Nodup := by rw [hk]; exact hlive.1
      have hx' : alGet x.1 l = some x.2 := by
        clear hn hk hg
        induction l with
        | nil => simp at hx
        | cons y r ih =>
          simp only [List.map_cons, List.nodup_cons] at hnd
          unfold alGet
          rcases List.mem_cons.mp hx with rfl | hx
          · simp
          · have : y.1 ≠ x.1 := fun h => hnd.1 (h ▸ List.mem_map_of_mem hx)
            rw [if_neg this]
            exact ih hx hnd.2
      rw [← hx', hg]; rfl
    · obtain ⟨_, hlive, hu⟩ := hw.2.2.2 ho
      obtain ⟨names, hn, _⟩ := listing_ok hlive.2
      exact ⟨names, hn⟩
    · refine ends_sendReply hs hp rfl (emptyObj_printable _) fun ho => ?_
      exact printable_put (printable_put ⟨by decide, fun _ => .null⟩ (utf8_lit (by decide))
        (commsJson_printable wanted l _ (emptyObj_printable _) (hl ho))) (utf8_lit (by decide))
        (str_printable fun _ => utf8_lit (by decide))
  | commOpen =>
    refine Ends.mutes (fun ho => by obtain ⟨_, h⟩ := hob ho; exact h) ?_
    refine (mutes_onComms _ _).bind fun x => (Mutes.attempt ?_).bind fun res => (mutes_onComms _ _).bind fun _ => ?_
    · split
      · exact Mutes.throw _
      · exact (mute_userCall mutes_op _ (yields_true _)).mono fun _ _ _ => trivial
    · split
      · exact Mutes.pure _
      · exact Mutes.throw _
  | commClose =>
    refine Ends.mutes (fun ho => by obtain ⟨_, h⟩ := hob ho; exact h) ?_
    exact (Mutes.readR _).bind fun x => (mutes_runHandler _ _).bind fun _ =>
      Mutes.modify (fun _ => rfl) (fun _ => rfl) (fun _ => rfl) fun _ h => h
  | commMsg =>
    refine Ends.mutes (fun ho => by obtain ⟨_, h⟩ := hob ho; exact h) ?_
    exact (Mutes.readR _).bind fun x => mutes_runHandler _ _
  | kernelInfo =>
    refine Ends.bind (Calm.call mutes_op _ fun ho => by obtain ⟨_, h⟩ := hob ho; exact h) fun j hj => ?_
    refine Ends.bind (P := fun j => ob → Printable env.eh j) (Calm.ofRes (fun a ha ho => ?_) fun ho =>
      ⟨_, set_eq_put (hj ho).1 _ _⟩) fun j hj => ends_sendReply hs hp rfl (emptyObj_printable _) hj
    rw [set_eq_put (hj ho).1] at ha
    cases ha
    exact printable_put (hj ho).2 (utf8_lit (by decide)) (str_printable fun _ => utf8_lit (by decide))
  | shutdown =>
    have hf : ob → msg.body.content.isObj = true ∧ ∃ b, boolField msg.body.content "restart" false = some b := by
      intro ho
      obtain ⟨_, b, hb⟩ := hob ho
      unfold restartField at hb
      split at hb
      · rename_i h; exact ⟨h, b, hb⟩
      · cases hb
    refine Ends.bind (calm_bool (k := "restart") hf) fun b _ => ?_
    refine Ends.bind (Calm.call (P := fun _ => True) mutes_op _ fun _ => yields_true _) fun _ _ => ?_
    refine Ends.bind (Calm.emit rfl) fun _ _ => ?_
    have hct : Printable env.eh (.obj [(lit "restart", .bool b)]) :=
      obj1_printable (utf8_lit (by decide)) ⟨by simp [Json.canon], fun _ => .bool⟩
    exact Ends.bind (Calm.publish hs (fun _ => utf8_lit (by decide)) (fun _ => hct) _) fun _ _ =>
      ends_sendReply hs hp rfl (emptyObj_printable _) fun _ => hct
  | interrupt =>
    exact Ends.bind (Calm.publish hs (fun _ => utf8_lit (by decide)) (fun _ => emptyObj_printable _) _) fun _ _ =>
      ends_sendReply hs hp rfl (emptyObj_printable _) fun _ => emptyObj_printable _
  | debug =>
    show Ends env I t msg .debug ob (debugRequest env I msg t)
    unfold debugRequest
    split
    · rename_i hd
      refine Ends.mutes (fun ho => ?_) (Mutes.pure _)
      obtain ⟨_, d, h, _⟩ := hob ho
      rw [hd] at h; cases h
    · rename_i d hd
      refine Ends.bind (Calm.call (P := Printable env.eh) (mutes_dop I) _ fun ho => ?_) fun j hj => ?_
      · obtain ⟨_, d', h, hy⟩ := hob ho
        rw [hd] at h; cases h; exact hy
      · exact Ends.bind (calm_getMetadata hs) fun md hmd => ends_sendReply hs hp rfl hmd hj

end

end Xeus
