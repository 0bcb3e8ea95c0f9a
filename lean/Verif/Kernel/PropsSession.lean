import Verif.Kernel.Outgoing
import Verif.Kernel.Props
import Verif.Kernel.Sessions
import Verif.Kernel.Sample

/-!
# Properties of whole sessions: C26 (outgoing messages), C31 (transcripts), C33 (start), C73 (clients understand them)
-/

namespace Xeus

open Spec K

variable {σ : Type}

theorem made_life (env : Env) (I : Interp σ) (conf : Prog σ DOp Unit) (xs : List (Multipart × Chan)) :
    Keeps (Made env) (life env I conf xs) :=
  Keeps.bind (Made.pre env) (made_debugger env I conf) fun _ =>
    Keeps.bind (Made.pre env) (made_start env) fun _ => made_session env I xs

theorem writeZmq_utf8 {K : Codec} (hK : LawfulCodec K) {j : Json} {f : Frame} (h : K.writeZmq .strict j = .ok f) :
    JsonUtf8 j := by
  by_cases hj : JsonUtf8 j
  · exact hj
  · simp [Codec.writeZmq, hK.dump_strict j hj] at h

theorem representable_of_sent {C : Crypto} {K : Codec} (hK : LawfulCodec K) {a : Auth} {eh : ErrH} {b : Body}
    (hc : CanonBody b) (h : eh = .strict ∨ Representable b) (hw : ∃ w, serializeBase C K a eh b = .ok w) :
    Representable b := by
  rcases h with rfl | h
  · obtain ⟨w, hw⟩ := hw
    simp only [serializeBase] at hw
    obtain ⟨f1, e1, hw⟩ := Res.bind_eq_ok.1 hw
    obtain ⟨f2, e2, hw⟩ := Res.bind_eq_ok.1 hw
    obtain ⟨f3, e3, hw⟩ := Res.bind_eq_ok.1 hw
    obtain ⟨f4, e4, hw⟩ := Res.bind_eq_ok.1 hw
    exact ⟨⟨hc.header, writeZmq_utf8 hK e1⟩, ⟨hc.parent, writeZmq_utf8 hK e2⟩, ⟨hc.metadata, writeZmq_utf8 hK e3⟩,
      ⟨hc.content, writeZmq_utf8 hK e4⟩⟩
  · exact h

theorem serialize_base {C : Crypto} {K : Codec} {a : Auth} {eh : ErrH} {m : XMessage} {w : Multipart}
    (h : serialize C K a eh m = .ok w) : ∃ w, serializeBase C K a eh m.body = .ok w := by
  simp only [serialize] at h
  obtain ⟨b, hb, _⟩ := Res.bind_eq_ok.1 h
  exact ⟨b, hb⟩

theorem serializePub_base {C : Crypto} {K : Codec} {a : Auth} {eh : ErrH} {m : PubMessage} {w : Multipart}
    (h : serializePub C K a eh m = .ok w) : ∃ w, serializeBase C K a eh m.body = .ok w := by
  simp only [serializePub] at h
  obtain ⟨b, hb, _⟩ := Res.bind_eq_ok.1 h
  exact ⟨b, hb⟩

/-! ## C26: identity and form of outgoing messages -/

/-- C26: every message emitted in the life of a kernel, whatever arrives and whatever user code does and however
it ends, has the header, the topic and the signature it should have; the numbers of the GUIDs used as message
identifiers strictly increase. -/
theorem C26_form (env : Env) (I : Interp σ) (conf : Prog σ DOp Unit) (xs : List (Multipart × Chan)) (s : σ)
    (shellQ stdinQ : List Multipart) :
    ∃ ns, ns.Pairwise (· < ·) ∧
      Paired (Emitted env) ns (messagesIn ((life env I conf xs).run (World.initial s shellQ stdinQ)).2.out) := by
  obtain ⟨_, _, es, ns, ho, hm, hp, _⟩ := made_life env I conf xs (World.initial s shellQ stdinQ) (by intro c; cases c <;> simp [World.initial])
  refine ⟨ns, hp, ?_⟩
  rw [ho]
  exact hm.messages

theorem Spec.Paired.exists_left {α β : Type} {R : α → β → Prop} {as : List α} {bs : List β} (h : Paired R as bs) :
    ∀ b ∈ bs, ∃ a ∈ as, R a b := by
  induction h with
  | nil => simp
  | @cons a b as bs hr _ ih =>
    intro x hx
    rcases List.mem_cons.mp hx with rfl | hx
    · exact ⟨a, by simp, hr⟩
    · obtain ⟨a', ha, h'⟩ := ih x hx
      exact ⟨a', by simp [ha], h'⟩

theorem Spec.Emitted.msgId {env : Env} {n : Nat} {e : Ev} (h : Emitted env n e) :
    Spec.msgId e = some (.str (newXguid (env.guid n))) := by
  have hf : ∀ i u s d t, (headerOf i u s d t).find? (lit "msg_id") = some (.str i) := by
    intro i u s d t
    simp (decide := true) [headerOf, Json.find?, Json.lookup]
  obtain ⟨date, type, ⟨c, m, wire, rfl, _, hh, _⟩ | ⟨m, wire, ⟨c, rfl⟩ | rfl, _, hh, _⟩⟩ := h <;>
    simp [Spec.msgId, bodyOf, hh, hf]

/-- C26: if the GUID source never repeats, no two messages have the same identifier. -/
theorem C26_distinct (env : Env) (hg : ∀ i j, env.guid i = env.guid j → i = j) (I : Interp σ)
    (conf : Prog σ DOp Unit) (xs : List (Multipart × Chan)) (s : σ) (shellQ stdinQ : List Multipart) :
    ((messagesIn ((life env I conf xs).run (World.initial s shellQ stdinQ)).2.out).map msgId).Nodup := by
  obtain ⟨ns, hp, hm⟩ := C26_form env I conf xs s shellQ stdinQ
  revert hp hm
  generalize messagesIn _ = es
  intro hp hm
  induction hm with
  | nil => exact .nil
  | @cons n e ns es he hr ih =>
    rw [List.pairwise_cons] at hp
    rw [List.map_cons, List.nodup_cons]
    refine ⟨?_, ih hp.2⟩
    intro hmem
    obtain ⟨e', he', heq⟩ := List.mem_map.mp hmem
    obtain ⟨n', hn', h'⟩ := hr.exists_left e' he'
    rw [he.msgId, h'.msgId] at heq
    have := hg _ _ ((C08_hex_faithful _ _).2.2.2.1 (Json.str.inj (Option.some.inj heq)))
    have := hp.1 n' hn'
    omega

/-- C26: what the header of an emitted message looks like: six members, in particular the user name and the
session of the kernel and the protocol version. -/
theorem C26_header (env : Env) (n : Nat) (e : Ev) (h : Emitted env n e) :
    ∃ b, bodyOf e = some b ∧ ∃ l, b.header = .obj l ∧
      l.map Prod.fst = [lit "date", lit "msg_id", lit "msg_type", lit "session", lit "username", lit "version"] ∧
      b.header.find? (lit "username") = some (.str env.user) ∧
      b.header.find? (lit "session") = some (.str env.session) ∧
      b.header.find? (lit "version") = some (.str (lit "5.3")) ∧
      b.header.find? (lit "msg_id") = some (.str (newXguid (env.guid n))) ∧
      ∃ type, b.header.find? (lit "msg_type") = some (.str type) ∧
        ∀ c m wire, e = .pub c m wire → m.topic = lit "kernel_core." ++ env.kernelId ++ lit "." ++ type := by
  obtain ⟨date, type, ⟨c, m, wire, rfl, ht, hh, _⟩ | ⟨m, wire, ⟨c, rfl⟩ | rfl, _, hh, _⟩⟩ := h <;>
    refine ⟨m.body, rfl, _, hh, rfl, ?_, ?_, ?_, ?_, type, ?_, ?_⟩ <;>
    first
    | (rw [hh]; simp (decide := true) [headerOf, Json.find?, Json.lookup]; done)
    | (intro _ _ _ he; cases he; try exact ht)

/-- The GUIDs of the sample kernel never repeat. -/
example : ∀ i j, sampleEnv.guid i = sampleEnv.guid j → i = j := by
  intro i j h
  have := congrArg List.length h
  simpa [sampleEnv] using this

/-! ## C33: the start message -/

/-- C33: the kernel starts by publishing `starting`, without parent, on the topic of its status messages; a client
with the same key and scheme decodes exactly this message.  (With the strict handler the user name and the session
have to be UTF-8; the kernel identifier need not be.) -/
theorem C33_start (env : Env) (hs : Sane env) (scheme key : Str) (h₁ : makeXauthentication scheme key = .ok env.auth)
    (hu : Utf8 env.user) (hse : Utf8 env.session) (hn : ∀ n, Utf8 (env.now n)) (w : World σ) (client : Auth)
    (h₂ : makeXauthentication scheme key = .ok client) :
    ∃ wire w', (start env).run w = (.ok (), w') ∧
      w'.out = w.out ++ [.pub .shell (startMessage env w) wire] ∧
      serializePub env.C env.J env.auth env.eh (startMessage env w) = .ok wire ∧
      deserializePub env.C env.J client wire = .ok (startMessage env w) := by
  have hrep : Representable (startMessage env w).body := by
    refine ⟨⟨headerOf_canon .., headerOf_utf8 (hexString_utf8 _) hu hse (hn _) (utf8_lit (by decide))⟩, ?_, ?_, ?_⟩
    · exact ⟨by show Json.canon (.obj []) = true; decide, .obj (by simp) (by simp)⟩
    · exact ⟨by show Json.canon (.obj []) = true; decide, .obj (by simp) (by simp)⟩
    · have := obj1_printable (eh := .strict) (k := lit "execution_state") (v := .str (lit "starting"))
        (utf8_lit (by decide)) (str_printable fun _ => utf8_lit (by decide))
      exact ⟨this.1, this.2 rfl⟩
  obtain ⟨wire, e1, e2⟩ := C02_pub_roundtrip env.C env.J hs.codec scheme key env.auth client h₁ h₂ env.eh
    (startMessage env w) hrep
  refine ⟨wire, _, by rw [run_start, e1, K.andThen_ok], rfl, e1, e2⟩

/-- C33: whatever follows, nothing comes before this message but what the interpreter sends while it is configured: output
without parent, and requests for input addressed to nobody. -/
theorem C33_first (env : Env) (hs : Sane env) (I : Interp σ) (conf : Prog σ DOp Unit) (xs : List (Multipart × Chan)) (s : σ)
    (shellQ stdinQ : List Multipart) (w : World σ) (hc : (configure env I conf).run (World.initial s shellQ stdinQ) = (.ok (), w)) :
    (∃ wire r, ((life env I conf xs).run (World.initial s shellQ stdinQ)).2.out =
      w.out ++ .pub .shell (startMessage env w) wire :: r) ∧ ∀ e ∈ w.out, IsOutput env ⟨[], .obj []⟩ e := by
  have hct : Printable env.eh (.obj [(lit "execution_state", .str (lit "starting"))]) :=
    obj1_printable (utf8_lit (by decide)) (str_printable fun _ => utf8_lit (by decide))
  obtain ⟨wire, hw⟩ := serializePub_ok (C := env.C) hs.codec env.auth (eh := env.eh)
    (m := startMessage env w) (hdrAt_printable hs w fun _ => utf8_lit (by decide))
    (emptyObj_printable _) (emptyObj_printable _) hct
  have hu := keeps_debugger hs.log I conf (World.initial s shellQ stdinQ)
  rw [show (conf.exec (DOp.sem env I)).run (World.initial s shellQ stdinQ) = (.ok (), w) from hc] at hu
  refine ⟨⟨wire, ?_⟩, ?_⟩
  · simp only [life, K.run_bind, hc, run_start, hw, K.andThen_ok]
    obtain ⟨_, _, es, _, ho, _⟩ := made_session env I xs _ (show IdsOk { tick w with
      out := (tick w).out ++ [.pub .shell (startMessage env w) wire] }
      from by intro c; show delim ∉ (w.parent c).ids; rw [hu.parent]; simp [World.initial])
    exact ⟨es, by rw [ho]; simp [tick]⟩
  · obtain ⟨es, ho, he⟩ := hu.out
    intro e hm
    rw [ho] at hm
    exact (he e (by simpa [World.initial] using hm)).output

/-- An interpreter that prints something when it is configured. -/
def greeting : Prog Nat DOp Unit := .call (.base (.pub (.stream (lit "stdout") (lit "hello")))) fun _ => .ret ()

example : ∃ w, (configure sampleEnv sampleInterp greeting).run (World.initial 0 [] []) = (.ok (), w) ∧ w.out.length = 1 :=
  ⟨((configure sampleEnv sampleInterp greeting).run (World.initial 0 [] [])).2, Prod.ext (by decide +kernel) rfl, by decide +kernel⟩

/-- C33: if configuring fails, the kernel is not started: nothing is sent but what the interpreter had sent before. -/
theorem C33_unconfigured (env : Env) (hs : Sane env) (I : Interp σ) (conf : Prog σ DOp Unit) (xs : List (Multipart × Chan)) (s : σ)
    (shellQ stdinQ : List Multipart) (hc : ((configure env I conf).run (World.initial s shellQ stdinQ)).1 ≠ .ok ()) :
    (life env I conf xs).run (World.initial s shellQ stdinQ) = (configure env I conf).run (World.initial s shellQ stdinQ) ∧
    ∀ e ∈ ((life env I conf xs).run (World.initial s shellQ stdinQ)).2.out, IsOutput env ⟨[], .obj []⟩ e := by
  have h : (life env I conf xs).run (World.initial s shellQ stdinQ) =
      (configure env I conf).run (World.initial s shellQ stdinQ) := by
    simp only [life, K.run_bind]
    revert hc
    rcases (configure env I conf).run (World.initial s shellQ stdinQ) with ⟨_ | _ | _ | _, w⟩ <;> simp
  refine ⟨h, ?_⟩
  rw [h]
  obtain ⟨es, ho, he⟩ := (keeps_debugger hs.log I conf (World.initial s shellQ stdinQ)).out
  intro e hm
  rw [show ((configure env I conf).run (World.initial s shellQ stdinQ)).2.out = _ from ho] at hm
  exact (he e (by simpa [World.initial] using hm)).output

example : ((configure sampleEnv sampleInterp (.throw (.runtime "no license") : Prog Nat DOp Unit)).run (World.initial 0 [] [])).1 ≠ .ok () := by
  decide +kernel

/-- C33: with the strict handler a user name that is not UTF-8 keeps the kernel from starting: nothing is sent. -/
theorem C33_unprintable (env : Env) (hJ : LawfulCodec env.J) (hst : env.eh = .strict) (hu : ¬ Utf8 env.user)
    (w : World σ) : ∃ e w', (start env).run w = (.exc e, w') ∧ w'.out = w.out := by
  have hj : ¬ JsonUtf8 (startMessage env w).body.header := by
    intro h
    cases h with
    | obj _ hv =>
      have := hv (lit "username", .str env.user) (by simp)
      cases this with
      | str h => exact hu h
  have hd := hJ.dump_strict _ hj
  have : serializePub env.C env.J env.auth env.eh (startMessage env w) = .exc .typeError := by
    simp [serializePub, serializeBase, Codec.writeZmq, hst, hd]
  exact ⟨.typeError, tick w, by rw [run_start, this, K.andThen_exc], rfl⟩

example : ∃ wire w', (start sampleEnv).run sampleWorld = (.ok (), w') ∧
    w'.out = [.pub .shell (startMessage sampleEnv sampleWorld) wire] ∧
    deserializePub toyCrypto stdCodec sampleAuth wire = .ok (startMessage sampleEnv sampleWorld) := by
  obtain ⟨wire, w', h1, h2, _, h4⟩ := C33_start sampleEnv sampleEnv_sane (lit "hmac-sha256") (lit "secret") (by decide +kernel)
    (utf8_lit (by decide)) (utf8_lit (by decide)) (fun _ => utf8_lit (by decide)) sampleWorld sampleAuth (by decide +kernel)
  exact ⟨wire, w', h1, h2, h4⟩

/-- A message that was emitted: the start message of the sample kernel. -/
example : ∃ e, Emitted sampleEnv 0 e := by
  obtain ⟨wire, w', _, _, h3, _⟩ := C33_start sampleEnv sampleEnv_sane (lit "hmac-sha256") (lit "secret") (by decide +kernel)
    (utf8_lit (by decide)) (utf8_lit (by decide)) (fun _ => utf8_lit (by decide)) sampleWorld sampleAuth (by decide +kernel)
  exact ⟨_, _, lit "status", .inl ⟨.shell, _, wire, rfl, by rw [List.append_assoc (lit "kernel_core." ++ _)]; rfl, rfl, h3⟩⟩

/-- A user name that is not UTF-8. -/
example : ¬ Utf8 [0xFF] := by rw [← utf8b_iff]; decide

/-! ## C73: clients understand what the kernel sends -/

/-- C73: every message emitted in the life of a kernel is decoded by a client with the same key and scheme to exactly
the message meant: identities or topic, header, parent header, metadata, content and buffers.  The JSON parts have
to be values `nlohmann::json` can hold (the model lets user code make others) and, unless the error handler is the
strict one, UTF-8. -/
theorem C73_decodable (env : Env) (hs : Sane env) (I : Interp σ) (conf : Prog σ DOp Unit) (xs : List (Multipart × Chan)) (s : σ)
    (shellQ stdinQ : List Multipart) (scheme key : Str) (h₁ : makeXauthentication scheme key = .ok env.auth)
    (client : Auth) (h₂ : makeXauthentication scheme key = .ok client) (e : Ev)
    (he : e ∈ ((life env I conf xs).run (World.initial s shellQ stdinQ)).2.out) :
    (∀ c m wire, e = .pub c m wire → CanonBody m.body → (env.eh = .strict ∨ Representable m.body) →
      deserializePub env.C env.J client wire = .ok m) ∧
    (∀ m wire, ((∃ c, e = .reply c m wire) ∨ e = .stdin m wire) → CanonBody m.body →
      (env.eh = .strict ∨ Representable m.body) → deserialize env.C env.J client wire = .ok m) := by
  obtain ⟨ns, _, hp⟩ := C26_form env I conf xs s shellQ stdinQ
  have mem : ∀ {es : List Ev}, e ∈ es → messagesIn [e] = [e] → e ∈ messagesIn es := by
    intro es
    induction es with
    | nil => simp
    | cons x es ih =>
      intro hx h1
      rcases List.mem_cons.mp hx with rfl | hx
      · cases e <;> simp_all [messagesIn]
      · have := ih hx h1
        cases x <;> simp_all [messagesIn]
  constructor
  · rintro c m wire rfl hc hr
    obtain ⟨n, _, date, type, ⟨c', m', wire', h, _, _, hw⟩ | ⟨m', wire', ⟨_, h⟩ | h, _⟩⟩ := hp.exists_left _ (mem he rfl)
    · cases h
      obtain ⟨w₂, e1, e2⟩ := C02_pub_roundtrip env.C env.J hs.codec scheme key env.auth client h₁ h₂ env.eh m
        (representable_of_sent hs.codec hc hr (serializePub_base hw))
      rw [hw] at e1
      cases e1
      exact e2
    · cases h
    · cases h
  · rintro m wire hev hc hr
    have hm : messagesIn [e] = [e] := by rcases hev with ⟨c, rfl⟩ | rfl <;> rfl
    obtain ⟨n, _, date, type, ⟨c', m', wire', h, _, _, hw⟩ | ⟨m', wire', h, hid, _, hw⟩⟩ := hp.exists_left _ (mem he hm)
    · rcases hev with ⟨c, rfl⟩ | rfl <;> cases h
    · obtain ⟨rfl, rfl⟩ : m' = m ∧ wire' = wire := by
        rcases hev with ⟨c, rfl⟩ | rfl <;> rcases h with ⟨_, h⟩ | h <;> cases h <;> exact ⟨rfl, rfl⟩
      obtain ⟨w₂, e1, e2⟩ := C01_roundtrip env.C env.J hs.codec scheme key env.auth client h₁ h₂ env.eh m'
        (representable_of_sent hs.codec hc hr (serialize_base hw)) hid
      rw [hw] at e1
      cases e1
      exact e2

/-- The start message of the sample kernel meets the hypotheses. -/
example : ∃ e m wire, e ∈ ((life sampleEnv sampleInterp (.ret ()) []).run (World.initial 0 [] [])).2.out ∧
    e = .pub .shell m wire ∧ CanonBody m.body ∧ sampleEnv.eh = .strict := by
  obtain ⟨⟨wire, r, h⟩, _⟩ := C33_first sampleEnv sampleEnv_sane sampleInterp (.ret ()) [] 0 [] [] _ rfl
  refine ⟨_, _, wire, by rw [h]; exact List.mem_cons_self, rfl, ⟨headerOf_canon .., ?_, ?_, ?_⟩, rfl⟩ <;>
    simp [startMessage, Json.canon, Json.sortedKeys, Json.canonO]

/-! ## C31: the transcript of a session -/

theorem dispatch_ok_block {env : Env} (hs : Sane env) (I : Interp σ) {q : Multipart} {m : XMessage} (c : Chan)
    (ha : Accepted env.C env.J env.auth q m) (w : World σ) :
    (∃ blk, ((dispatch env I q c).run w).1 = .ok () ∧ ((dispatch env I q c).run w).2.out = w.out ++ blk ∧
      Block env m c blk) ∨
    (∃ blk, ((dispatch env I q c).run w).1 ≠ .ok () ∧ ((dispatch env I q c).run w).2.out = w.out ++ blk ∧
      OpenBlock env m c blk) := by
  cases ht : typeOf m.body.header with
  | none =>
    obtain ⟨w₀, hb, hrun⟩ := untyped hs I c ha w ht
    obtain ⟨b, hb1, hb2⟩ := hb.out
    exact .inr ⟨[b], by rw [hrun]; simp, by rw [hrun, hb2], b, [], by simp, hb1, by simp⟩
  | some t =>
    obtain ⟨b, es, fin, hb, hes, hout, ⟨hok, i, rfl, hi⟩ | ⟨rfl, h⟩⟩ := C12_bracket env hs I q m c t ha ht w
    · exact .inl ⟨_, hok, hout, b, es, i, rfl, hb, hes, hi⟩
    · refine .inr ⟨_, ?_, hout, b, es, by simp, hb, hes⟩
      rcases h with ⟨n, _, h, _⟩ | ⟨s, h⟩ | h <;> rw [h] <;> simp

/-- C31: if a session comes to its end, the traffic is one block per accepted message, in order; rejected messages
leave no trace, blocks do not overlap, and the parent header of `busy` and `idle` is the header of the request. -/
theorem C31_transcript (env : Env) (hs : Sane env) (I : Interp σ) (xs : List (Multipart × Chan)) (w : World σ)
    (hok : ((session env I xs).run w).1 = .ok ()) :
    ∃ es, ((session env I xs).run w).2.out = w.out ++ es ∧ Transcript env xs es := by
  induction xs generalizing w with
  | nil => exact ⟨[], by simp [session], .nil⟩
  | cons x r ih =>
    obtain ⟨q, c⟩ := x
    rw [run_session_cons] at hok ⊢
    rcases dispatch_trichotomy (env := env) I q c w with ⟨hr, h⟩ | ⟨_, s, h⟩ | ⟨m, ha⟩
    · rw [h, K.andThen_ok] at hok ⊢
      obtain ⟨es, ho, ht⟩ := ih w hok
      exact ⟨es, ho, .rejected hr ht⟩
    · rw [h, K.andThen_ub] at hok
      simp at hok
    · rcases dispatch_ok_block hs I c ha w with ⟨blk, h1, h2, h3⟩ | ⟨blk, h1, _⟩
      · rcases hx : (dispatch env I q c).run w with ⟨y, w₁⟩
        rw [hx] at hok h1 h2
        cases h1
        rw [K.andThen_ok] at hok ⊢
        obtain ⟨es, ho, ht⟩ := ih w₁ hok
        exact ⟨blk ++ es, by rw [ho, h2, List.append_assoc], .accepted ha h3 ht⟩
      · rcases hx : (dispatch env I q c).run w with ⟨y, w₁⟩
        rw [hx] at hok h1
        cases y with
        | ok u => exact absurd rfl h1
        | exc e => rw [K.andThen_exc] at hok; simp at hok
        | ub s => rw [K.andThen_ub] at hok; simp at hok
        | hang => rw [K.andThen_hang] at hok; simp at hok

/-- C31: if a session breaks off, the messages before the fatal one make a transcript, the fatal one is either undefined
and leaves no trace or leaves the beginning of a block, and the messages after it leave none. -/
theorem C31_broken (env : Env) (hs : Sane env) (I : Interp σ) (xs : List (Multipart × Chan)) (w : World σ)
    (hbad : ((session env I xs).run w).1 ≠ .ok ()) :
    ∃ before q c after es last, xs = before ++ (q, c) :: after ∧
      ((session env I xs).run w).2.out = w.out ++ es ++ last ∧ Transcript env before es ∧
      ((Undefined env.J env.auth q ∧ last = []) ∨
        ∃ m, Accepted env.C env.J env.auth q m ∧ OpenBlock env m c last) := by
  induction xs generalizing w with
  | nil => exact absurd rfl hbad
  | cons x r ih =>
    obtain ⟨q, c⟩ := x
    rw [run_session_cons] at hbad ⊢
    rcases dispatch_trichotomy (env := env) I q c w with ⟨hr, h⟩ | ⟨hu, s, h⟩ | ⟨m, ha⟩
    · rw [h, K.andThen_ok] at hbad ⊢
      obtain ⟨before, q', c', after, es, last, rfl, ho, ht, hl⟩ := ih w hbad
      exact ⟨(q, c) :: before, q', c', after, es, last, rfl, ho, .rejected hr ht, hl⟩
    · rw [h, K.andThen_ub]
      exact ⟨[], q, c, r, [], [], rfl, by simp, .nil, .inl ⟨hu, rfl⟩⟩
    · rcases dispatch_ok_block hs I c ha w with ⟨blk, h1, h2, h3⟩ | ⟨blk, h1, h2, h3⟩
      · rcases hx : (dispatch env I q c).run w with ⟨y, w₁⟩
        rw [hx] at hbad h1 h2
        cases h1
        rw [K.andThen_ok] at hbad ⊢
        obtain ⟨before, q', c', after, es, last, rfl, ho, ht, hl⟩ := ih w₁ hbad
        refine ⟨(q, c) :: before, q', c', after, blk ++ es, last, rfl, ?_, .accepted ha h3 ht, hl⟩
        rw [ho, h2, List.append_assoc w.out blk es]
      · rcases hx : (dispatch env I q c).run w with ⟨y, w₁⟩
        rw [hx] at h1 h2
        refine ⟨[], q, c, r, [], blk, rfl, ?_, .nil, .inr ⟨m, ha, h3⟩⟩
        cases y with
        | ok u => exact absurd rfl h1
        | exc e => rw [K.andThen_exc]; simpa using h2
        | ub s => rw [K.andThen_ub]; simpa using h2
        | hang => rw [K.andThen_hang]; simpa using h2

/-- A rejected message followed by an interrupt request. -/
example : ∃ q, (∃ m, Accepted sampleEnv.C sampleEnv.J sampleEnv.auth q m) ∧
    ((session sampleEnv sampleInterp [([[1]], .shell), (q, .control)]).run sampleWorld).1 = .ok () := by
  obtain ⟨q, hq⟩ := sampleReq_accepted "interrupt_request" (.arr [.null]) (by decide) (by decide) (by decide +kernel)
  refine ⟨q, ⟨_, hq⟩, ?_⟩
  obtain ⟨_, _, _, _, h⟩ := C23_interrupt sampleEnv sampleEnv_sane sampleInterp q _ .control hq rfl sampleWorld
    sampleWorld_parents
  have h0 := dispatch_refused (env := sampleEnv) sampleInterp .shell sampleWorld (q := [[1]]) (.inl (by decide))
  rw [run_session_cons]
  simp only
  rw [h0, K.andThen_ok, run_session_cons]
  rcases hx : (dispatch sampleEnv sampleInterp q .control).run sampleWorld with ⟨y, w₁⟩
  have := h.ok
  rw [hx] at this
  cases this
  rfl

/-- A session that breaks off at its first message. -/
example : ((session sampleEnv sampleInterp [([], .shell), ([[1]], .shell)]).run sampleWorld).1 ≠ .ok () := by
  obtain ⟨s, h⟩ := dispatch_undefined (env := sampleEnv) sampleInterp .shell sampleWorld (q := []) (.inl rfl)
  rw [run_session_cons]
  simp only
  rw [h, K.andThen_ub]
  simp

end Xeus
