import Verif.Kernel.PropsSession
import Verif.Kernel.CommRuns
import Verif.Kernel.CommTrace
import Verif.Comm.Transfers

/-!
# Properties of comms: C34 (registry), C35–C37 (incoming messages), C38 (moving and copying), C39 (outgoing
messages), C40 (hazards)
-/

namespace Xeus

open Spec K

variable {σ : Type}

/-! ## C34: the registry -/

/-- C34: after any sequence of disciplined acts the registry maps exactly the identifiers of the live comms that were
not closed to exactly these comms. -/
theorem C34_registry {as : List CommAct} {s : Comms} (ht : Trace Comms.empty as s) (hd : Disciplined Comms.empty as)
    (id : Str) (a : Nat) :
    alGet id s.reg = some a ↔ ∃ c, Alive s a c ∧ c.id = id ∧ ¬ WasClosed Comms.empty as a := by
  have h := trace_inv ht hd
  constructor
  · exact h.sound id a
  · rintro ⟨c, hc, rfl, hn⟩
    exact h.complete a c hc hn

/-- C34: live comms have different identifiers and usable targets. -/
theorem C34_comms {as : List CommAct} {s : Comms} (ht : Trace Comms.empty as s) (hd : Disciplined Comms.empty as) :
    (∀ a b c d, Alive s a c → Alive s b d → c.id = d.id → a = b) ∧ ∀ a c, Alive s a c → Usable s c.target :=
  ⟨(trace_inv ht hd).ids, (trace_inv ht hd).usable⟩

/-- C34: no pointer in the registry dangles. -/
theorem C34_live {as : List CommAct} {s : Comms} (ht : Trace Comms.empty as s) (hd : Disciplined Comms.empty as) :
    RegistryLive s := by
  have h := trace_inv ht hd
  refine ⟨h.keys, fun id a hm => ?_⟩
  obtain ⟨c, hc, _⟩ := h.sound id a (mem_alGet h.keys hm)
  obtain ⟨n, hn, _⟩ := h.usable a c hc
  exact ⟨c, n, hc.1, hn⟩

/-- C34: a disciplined act is always defined. -/
theorem C34_defined {as : List CommAct} {s : Comms} (ht : Trace Comms.empty as s) (hd : Disciplined Comms.empty as)
    {act : CommAct} (ha : Allowed s act) : ∃ s', Does act s s' := by
  obtain ⟨s', h, _⟩ := act_inv (trace_inv ht hd) ha
  exact ⟨s', h⟩

theorem rec_life (env : Env) (I : Interp σ) (conf : Prog σ DOp Unit) (xs : List (Multipart × Chan)) :
    Keeps Recorded (life env I conf xs) := by
  refine Keeps.bind Recorded.pre (rec_debugger env I conf) fun _ => Keeps.bind Recorded.pre ?_ fun _ => rec_session env I xs
  intro w
  rw [run_start]
  cases serializePub env.C env.J env.auth env.eh (startMessage env w) <;> exact SameComms.recorded ⟨rfl, rfl⟩

/-- C34: in the life of a kernel, whatever arrives and however user code ends, the comms are the result of the acts on
record.  As long as these were disciplined, the registry is exact and nothing in it dangles. -/
theorem C34_kernel (env : Env) (I : Interp σ) (conf : Prog σ DOp Unit) (xs : List (Multipart × Chan)) (st : σ)
    (shellQ stdinQ : List Multipart) (w : World σ) (hw : w = ((life env I conf xs).run (World.initial st shellQ stdinQ)).2) :
    Trace Comms.empty w.acts w.comm ∧ (Disciplined Comms.empty w.acts → RegistryLive w.comm ∧ ∀ id a,
      alGet id w.comm.reg = some a ↔ ∃ c, Alive w.comm a c ∧ c.id = id ∧ ¬ WasClosed Comms.empty w.acts a) := by
  subst hw
  have ht : Trace Comms.empty _ _ := rec_life env I conf xs (World.initial st shellQ stdinQ) .nil
  exact ⟨ht, fun hd => ⟨C34_live ht hd, C34_registry ht hd⟩⟩

/-! ### An example: a kernel whose user code registers a target and keeps the comms opened for it -/

/-- When it is configured, the interpreter registers the target `t`. -/
def commConf : Prog Nat DOp Unit := .call (.base (.comm (.registerTarget (lit "t") (some 0)))) fun _ => .ret ()

/-- Its callback moves the comm. -/
def commInterp : Interp Nat := { sampleInterp with
  target := fun _ a _ => .call (.comm (.move a)) fun r => match r with
    | .ok (.addr b) => .call (.comm (.onMessage b (some 7))) fun _ => .set b (.ret ())
    | _ => .ret () }

/-- A message as it arrives. -/
def wireOf (m : XMessage) : Multipart :=
  match serialize toyCrypto stdCodec sampleAuth .strict m with
  | .ok q => q
  | _ => []

/-- The content of the opening message. -/
def openContent : Json := .obj [(lit "comm_id", .str (lit "c1")), (lit "target_name", .str (lit "t"))]

/-- Run some code, open a comm and send it a message. -/
def commScript : List (Multipart × Chan) :=
  [(wireOf (sampleReq "execute_request" (.obj [(lit "code", .str (lit "x"))])), .shell),
   (wireOf (sampleReq "comm_open" openContent), .shell),
   (wireOf (sampleReq "comm_msg" (.obj [(lit "comm_id", .str (lit "c1"))])), .shell)]

/-- What is done to the comms then. -/
def commActs : List CommAct :=
  [.op (.registerTarget (lit "t") (some 0)) [], .opened openContent, .op (.move 1) [], .op (.onMessage 2 (some 7)) [],
   .op (.destroy 1) []]

theorem commActs_done : ((life sampleEnv commInterp commConf commScript).run (World.initial 0 [] [])).2.acts = commActs := by
  decide +kernel

theorem disciplined_nil (s : Comms) : Disciplined s [] := by
  intro p act r s₁ h
  simp at h

/-- Checking discipline act by act. -/
theorem disciplined_step {s s₁ s₂ : Comms} {as : List CommAct} {act : CommAct} (hd : Disciplined s as)
    (ht : Trace s as s₁) (ha : Allowed s₁ act) (h : Does act s₁ s₂) :
    Disciplined s (as ++ [act]) ∧ Trace s (as ++ [act]) s₂ := by
  refine ⟨fun p x r s' he hp => ?_, .snoc ht h⟩
  rcases List.eq_nil_or_concat r with rfl | ⟨r', y, rfl⟩
  · obtain ⟨rfl, he'⟩ := List.append_inj' he rfl
    obtain rfl := List.singleton_inj.1 he'
    obtain rfl := trace_unique ht hp
    exact ha
  · rw [List.concat_eq_append, ← List.cons_append, ← List.append_assoc] at he
    obtain ⟨rfl, _⟩ := List.append_inj' he rfl
    exact hd p x r' s' rfl hp

theorem commActs_disciplined : Disciplined Comms.empty commActs := by
  have h0 := disciplined_nil Comms.empty
  have h1 := disciplined_step h0 .nil (act := .op (.registerTarget (lit "t") (some 0)) []) trivial ⟨.unit, rfl⟩
  have h2 := disciplined_step h1.1 h1.2 (act := .opened openContent)
    (s₂ := ⟨[(1, ⟨0, lit "c1", none, none, none⟩)], [(lit "c1", 1)], [(lit "t", 0)], [(0, ⟨lit "t", some 0, true⟩)], 2⟩)
    ⟨lit "t", 0, lit "c1", rfl, rfl, by decide, rfl, ⟨_, rfl, rfl⟩, fun a c h => by
      simp [Alive, Comms.registerTarget, Comms.empty, alGet] at h⟩ ⟨1, some 0, by decide +kernel⟩
  have h3 := disciplined_step h2.1 h2.2 (act := .op (.move 1) [])
    (s₂ := ⟨[(1, ⟨0, lit "c1", some true, none, none⟩), (2, ⟨0, lit "c1", some false, none, none⟩)], [(lit "c1", 2)],
      [(lit "t", 0)], [(0, ⟨lit "t", some 0, true⟩)], 3⟩) ⟨_, rfl, by simp⟩ ⟨.addr 2, rfl⟩
  have h4 := disciplined_step h3.1 h3.2 (act := .op (.onMessage 2 (some 7)) [])
    (s₂ := ⟨[(1, ⟨0, lit "c1", some true, none, none⟩), (2, ⟨0, lit "c1", some false, some 7, none⟩)], [(lit "c1", 2)],
      [(lit "t", 0)], [(0, ⟨lit "t", some 0, true⟩)], 3⟩) ⟨_, rfl⟩ ⟨.unit, rfl⟩
  have h5 := disciplined_step h4.1 h4.2 (act := .op (.destroy 1) [])
    (s₂ := ⟨[(2, ⟨0, lit "c1", some false, some 7, none⟩)], [(lit "c1", 2)],
      [(lit "t", 0)], [(0, ⟨lit "t", some 0, true⟩)], 3⟩) ⟨_, rfl, by simp⟩ ⟨.unit, rfl⟩
  exact h5.1

/-- The kernel is disciplined there, and the opened comm is registered and live. -/
example : ∃ w, w = ((life sampleEnv commInterp commConf commScript).run (World.initial 0 [] [])).2 ∧
    Disciplined Comms.empty w.acts ∧ alGet (lit "c1") w.comm.reg = some 2 ∧
    Alive w.comm 2 ⟨0, lit "c1", some false, some 7, none⟩ := by
  refine ⟨_, rfl, ?_, by decide +kernel, by decide +kernel, by decide⟩
  rw [commActs_done]
  exact commActs_disciplined

/-- In that state an act is allowed that changes the registry. -/
example : ∃ s, Trace Comms.empty commActs s ∧ Allowed s (.op (.copy 2) (lit "g")) := by
  refine ⟨((life sampleEnv commInterp commConf commScript).run (World.initial 0 [] [])).2.comm, ?_, ?_⟩
  · have := (C34_kernel sampleEnv commInterp commConf commScript 0 [] [] _ rfl).1
    rwa [commActs_done] at this
  · have : ((life sampleEnv commInterp commConf commScript).run (World.initial 0 [] [])).2.comm =
      ⟨[(2, ⟨0, lit "c1", some false, some 7, none⟩)], [(lit "c1", 2)],
      [(lit "t", 0)], [(0, ⟨lit "t", some 0, true⟩)], 3⟩ := by decide +kernel
    rw [this]
    refine ⟨⟨_, rfl, by simp⟩, fun a c h => ?_⟩
    simp only [Alive, alGet] at h
    split at h
    · cases h.1; decide
    · cases h.1

/-! ## C35: comm_open -/

/-- C35: a comm_open for a registered target calls its callback exactly once, with a comm bearing the requested
identifier, registered under it, and with the message; the local comm is destroyed afterwards. -/
theorem C35_open (env : Env) (hs : Sane env) (I : Interp σ) (q : Multipart) (m : XMessage) (c : Chan)
    (ha : Accepted env.C env.J env.auth q m) (hr : IsReq m .commOpen) (w : World σ) {name id : Str} {t cb : Nat} {n : Target}
    (h1 : m.body.content.find? (lit "target_name") = some (.str name))
    (h2 : m.body.content.find? (lit "comm_id") = some (.str id)) (h3 : id.length ≤ 55)
    (h4 : alGet name w.comm.names = some t) (h5 : alGet t w.comm.nodes = some n) (h6 : n.managed = true)
    (h7 : n.callback = some cb) : OpenCourse env I q m c w t cb id :=
  open_course hs I c ha w hr h1 h2 h3 h4 h5 h6 h7

/-- C35: a comm_open for a name without target throws and changes nothing. -/
theorem C35_unregistered (env : Env) (hs : Sane env) (I : Interp σ) (q : Multipart) (m : XMessage) (c : Chan)
    (ha : Accepted env.C env.J env.auth q m) (hr : IsReq m .commOpen) (w : World σ) {name : Str}
    (h1 : m.body.content.find? (lit "target_name") = some (.str name)) (h2 : alGet name w.comm.names = none) :
    Handled env m c w [] ((dispatch env I q c).run w) :=
  open_refused hs I c ha w hr rfl (openLookup_unknown h1 h2)

/-- C35: so does one whose target name, or identifier, is not a text. -/
theorem C35_bad (env : Env) (hs : Sane env) (I : Interp σ) (q : Multipart) (m : XMessage) (c : Chan)
    (ha : Accepted env.C env.J env.auth q m) (hr : IsReq m .commOpen) (w : World σ)
    (h : NotText m.body.content "target_name" ∨ NotText m.body.content "comm_id" ∧ ∃ name t n,
      m.body.content.find? (lit "target_name") = some (.str name) ∧ alGet name w.comm.names = some t ∧
      alGet t w.comm.nodes = some n) :
    Handled env m c w [] ((dispatch env I q c).run w) := by
  rcases h with h | ⟨h, name, t, n, h1, h2, h3⟩
  · exact open_refused hs I c ha w hr rfl (openLookup_notText h)
  · exact open_refused hs I c ha w hr rfl (openLookup_idNotText h1 h2 h3 h)

/-- Finding (C35): a comm_open for a target without callback, or for a name only mentioned by `target(name)`, or
without target name or identifier, is undefined behaviour. -/
theorem C35_undefined (env : Env) (hs : Sane env) (I : Interp σ) (q : Multipart) (m : XMessage) (c : Chan)
    (ha : Accepted env.C env.J env.auth q m) (hr : IsReq m .commOpen) (w : World σ)
    (h : (∃ name id t n, m.body.content.find? (lit "target_name") = some (.str name) ∧
        m.body.content.find? (lit "comm_id") = some (.str id) ∧ id.length ≤ 55 ∧ alGet name w.comm.names = some t ∧
        alGet t w.comm.nodes = some n ∧ (n.managed = false ∨ n.callback = none)) ∨
      (m.body.content.isObj = true ∧ m.body.content.find? (lit "target_name") = none) ∨
      (m.body.content.find? (lit "comm_id") = none ∧ ∃ name t n,
        m.body.content.find? (lit "target_name") = some (.str name) ∧ alGet name w.comm.names = some t ∧
        alGet t w.comm.nodes = some n)) :
    ∃ why w', (dispatch env I q c).run w = (.ub why, w') := by
  rcases h with ⟨name, id, t, n, h1, h2, h3, h4, h5, h6⟩ | ⟨ho, h⟩ | ⟨h, name, t, n, h1, h2, h3⟩
  · cases hm : n.managed with
    | false => exact open_unmanaged hs I c ha w hr h1 h2 h3 h4 h5 hm
    | true =>
      rcases h6 with h6 | h6
      · rw [hm] at h6; cases h6
      · exact open_empty hs I c ha w hr h1 h2 h3 h4 h5 hm h6
  · obtain ⟨why, hw⟩ := openLookup_missing (s := w.comm) ho h
    obtain ⟨w', h⟩ := open_ub hs I c ha w hr hw
    exact ⟨why, w', h⟩
  · obtain ⟨why, hw⟩ := openLookup_idMissing (s := w.comm) h1 h2 h3 (by
      cases hc : m.body.content with
      | obj l => rfl
      | _ => rw [hc] at h1; simp [Json.find?] at h1) h
    obtain ⟨w', h⟩ := open_ub hs I c ha w hr hw
    exact ⟨why, w', h⟩

/-- A kernel with the target `t` (callback 0), the target `v` without callback, and a name mentioned by
`target(name)`. -/
def openComms : Comms :=
  ⟨[], [], [(lit "t", 0), (lit "v", 1), (lit "x", 2)],
    [(0, ⟨lit "t", some 0, true⟩), (1, ⟨lit "v", none, true⟩), (2, ⟨[], none, false⟩)], 3⟩

example : ∃ q m, Accepted sampleEnv.C sampleEnv.J sampleEnv.auth q m ∧
    OpenCourse sampleEnv commInterp q m .shell { sampleWorld with comm := openComms } 0 0 (lit "c1") := by
  obtain ⟨q, hq⟩ := sampleReq_accepted "comm_open" openContent (by decide) (by decide) (by decide +kernel)
  exact ⟨q, _, hq, C35_open sampleEnv sampleEnv_sane commInterp q _ .shell hq rfl _ (t := 0) (n := ⟨lit "t", some 0, true⟩)
    rfl rfl (by decide) rfl rfl rfl rfl⟩

example : ∃ q m, Accepted sampleEnv.C sampleEnv.J sampleEnv.auth q m ∧
    Handled sampleEnv m .shell sampleWorld [] ((dispatch sampleEnv commInterp q .shell).run sampleWorld) := by
  obtain ⟨q, hq⟩ := sampleReq_accepted "comm_open" openContent (by decide) (by decide) (by decide +kernel)
  exact ⟨q, _, hq, C35_unregistered sampleEnv sampleEnv_sane commInterp q _ .shell hq rfl _ rfl rfl⟩

example : ∃ q m, Accepted sampleEnv.C sampleEnv.J sampleEnv.auth q m ∧
    Handled sampleEnv m .shell sampleWorld [] ((dispatch sampleEnv commInterp q .shell).run sampleWorld) := by
  obtain ⟨q, hq⟩ := sampleReq_accepted "comm_open" (.obj [(lit "target_name", .int 3)]) (by decide) (by decide)
    (by decide +kernel)
  exact ⟨q, _, hq, C35_bad sampleEnv sampleEnv_sane commInterp q _ .shell hq rfl _ (.inl (.inr ⟨.int 3, rfl, by simp⟩))⟩

example : ∃ q m why w', Accepted sampleEnv.C sampleEnv.J sampleEnv.auth q m ∧
    (dispatch sampleEnv commInterp q .shell).run { sampleWorld with comm := openComms } = (.ub why, w') := by
  obtain ⟨q, hq⟩ := sampleReq_accepted "comm_open"
    (.obj [(lit "comm_id", .str (lit "c1")), (lit "target_name", .str (lit "x"))]) (by decide) (by decide) (by decide +kernel)
  obtain ⟨why, w', h⟩ := C35_undefined sampleEnv sampleEnv_sane commInterp q _ .shell hq rfl
    { sampleWorld with comm := openComms } (.inl ⟨lit "x", lit "c1", 2, ⟨[], none, false⟩, rfl, rfl, by decide, rfl, rfl, .inl rfl⟩)
  exact ⟨q, _, why, w', hq, h⟩

/-- The comm is there when the callback runs, and lives on at the address it was moved to. -/
example : ((dispatch sampleEnv commInterp (wireOf (sampleReq "comm_open" openContent)) .shell).run
      { sampleWorld with comm := openComms }).2.comm.reg = [(lit "c1", 4)] := by decide +kernel

/-! ## C36: comm_msg -/

/-- C36: a comm_msg runs the message handler of exactly the comm registered under its identifier, once, with the
message, or does nothing if that has none. -/
theorem C36_msg (env : Env) (hs : Sane env) (I : Interp σ) (q : Multipart) (m : XMessage) (c : Chan)
    (ha : Accepted env.C env.J env.auth q m) (hr : IsReq m .commMsg) (w : World σ) {id : Str} {a : Nat} {cm : Comm}
    (h1 : m.body.content.find? (lit "comm_id") = some (.str id)) (h2 : id.length ≤ 55)
    (h3 : alGet id w.comm.reg = some a) (h4 : alGet a w.comm.objs = some cm) :
    HandlerCourse env I q m c w cm.onMessage fun s s' => s' = s :=
  msg_course hs I c ha w hr h1 h2 h3 h4

/-- C36, C37: comm_msg and comm_close with an unknown identifier, or one that is not a text, throw and change
nothing. -/
theorem C36_unknown (env : Env) (hs : Sane env) (I : Interp σ) (q : Multipart) (m : XMessage) (c : Chan)
    (ha : Accepted env.C env.J env.auth q m) (r : Req) (hr : IsReq m r) (hk : r = .commMsg ∨ r = .commClose) (w : World σ)
    (h : NotText m.body.content "comm_id" ∨
      ∃ id, m.body.content.find? (lit "comm_id") = some (.str id) ∧ id.length ≤ 55 ∧ alGet id w.comm.reg = none) :
    Handled env m c w [] ((dispatch env I q c).run w) := by
  rcases h with h | ⟨id, h1, h2, h3⟩
  · exact traffic_refused hs I c ha w hr hk rfl (msgLookup_notText h)
  · exact traffic_refused hs I c ha w hr hk rfl (msgLookup_unknown h1 h2 h3)

/-- Finding (C36, C37): without identifier, or when the registry dangles, they are undefined behaviour. -/
theorem C36_undefined (env : Env) (hs : Sane env) (I : Interp σ) (q : Multipart) (m : XMessage) (c : Chan)
    (ha : Accepted env.C env.J env.auth q m) (r : Req) (hr : IsReq m r) (hk : r = .commMsg ∨ r = .commClose) (w : World σ)
    (h : m.body.content.isObj = true ∧ m.body.content.find? (lit "comm_id") = none ∨
      ∃ id a, m.body.content.find? (lit "comm_id") = some (.str id) ∧ id.length ≤ 55 ∧ alGet id w.comm.reg = some a ∧
        alGet a w.comm.objs = none) :
    ∃ why w', (dispatch env I q c).run w = (.ub why, w') := by
  rcases h with ⟨ho, h⟩ | ⟨id, a, h1, h2, h3, h4⟩
  · obtain ⟨why, hw⟩ := msgLookup_missing (s := w.comm) ho h
    obtain ⟨w', h⟩ := traffic_ub hs I c ha w hr hk hw
    exact ⟨why, w', h⟩
  · obtain ⟨why, hw⟩ := msgLookup_dangling (s := w.comm) h1 h2 h3 h4
    obtain ⟨w', h⟩ := traffic_ub hs I c ha w hr hk hw
    exact ⟨why, w', h⟩

/-- The comm `c2` with message handler 5. -/
example : ∃ q m w₁, Accepted sampleEnv.C sampleEnv.J sampleEnv.auth q m ∧
    AtCall sampleEnv m .shell { sampleWorld with comm := sampleComms } 0 [] (.handler 5 m) w₁ ∧
    HandlerCourse sampleEnv sampleInterp q m .shell { sampleWorld with comm := sampleComms } (some 5) fun s s' => s' = s := by
  obtain ⟨q, hq⟩ := sampleReq_accepted "comm_msg" (.obj [(lit "comm_id", .str (lit "c2"))]) (by decide) (by decide)
    (by decide +kernel)
  have h := C36_msg sampleEnv sampleEnv_sane sampleInterp q _ .shell hq rfl { sampleWorld with comm := sampleComms }
    (id := lit "c2") (a := 3) (cm := ⟨1, lit "c2", some false, some 5, some 6⟩) rfl (by decide) rfl rfl
  have h' := h
  obtain ⟨w₁, h1, _⟩ := h'
  exact ⟨q, _, w₁, hq, h1, h⟩

example : ∃ q m, Accepted sampleEnv.C sampleEnv.J sampleEnv.auth q m ∧
    Handled sampleEnv m .shell { sampleWorld with comm := sampleComms } []
      ((dispatch sampleEnv sampleInterp q .shell).run { sampleWorld with comm := sampleComms }) := by
  obtain ⟨q, hq⟩ := sampleReq_accepted "comm_msg" (.obj [(lit "comm_id", .str (lit "c3"))]) (by decide) (by decide)
    (by decide +kernel)
  exact ⟨q, _, hq, C36_unknown sampleEnv sampleEnv_sane sampleInterp q _ .shell hq .commMsg rfl (.inl rfl) _
    (.inr ⟨lit "c3", rfl, by decide, rfl⟩)⟩

example : ∃ q m why w', Accepted sampleEnv.C sampleEnv.J sampleEnv.auth q m ∧
    (dispatch sampleEnv sampleInterp q .shell).run { sampleWorld with comm := sampleComms } = (.ub why, w') := by
  obtain ⟨q, hq⟩ := sampleReq_accepted "comm_close" (.obj []) (by decide) (by decide) (by decide +kernel)
  obtain ⟨why, w', h⟩ := C36_undefined sampleEnv sampleEnv_sane sampleInterp q _ .shell hq .commClose rfl (.inr rfl)
    { sampleWorld with comm := sampleComms } (.inl ⟨rfl, rfl⟩)
  exact ⟨q, _, why, w', hq, h⟩

/-! ## C37: comm_close -/

/-- C37: a comm_close runs the close handler of the comm registered under its identifier once with the message; when
it has returned the identifier is registered no more; if it throws the registry is as the handler left it. -/
theorem C37_close (env : Env) (hs : Sane env) (I : Interp σ) (q : Multipart) (m : XMessage) (c : Chan)
    (ha : Accepted env.C env.J env.auth q m) (hr : IsReq m .commClose) (w : World σ) {id : Str} {a : Nat} {cm : Comm}
    (h1 : m.body.content.find? (lit "comm_id") = some (.str id)) (h2 : id.length ≤ 55)
    (h3 : alGet id w.comm.reg = some a) (h4 : alGet a w.comm.objs = some cm) :
    HandlerCourse env I q m c w cm.onClose fun s s' => Erased s id s' :=
  close_course hs I c ha w hr h1 h2 h3 h4

/-- C37: a second close with the same identifier throws and changes nothing, if the first one was handled and the
close handler did return. -/
theorem C37_twice (env : Env) (hs : Sane env) (I : Interp σ) (q q' : Multipart) (m m' : XMessage) (c c' : Chan)
    (ha : Accepted env.C env.J env.auth q m) (hr : IsReq m .commClose) (ha' : Accepted env.C env.J env.auth q' m')
    (hr' : IsReq m' .commClose) (w : World σ) {id : Str} {a : Nat} {cm : Comm}
    (h1 : m.body.content.find? (lit "comm_id") = some (.str id)) (h2 : id.length ≤ 55)
    (h1' : m'.body.content.find? (lit "comm_id") = some (.str id))
    (h3 : alGet id w.comm.reg = some a) (h4 : alGet a w.comm.objs = some cm)
    (hret : ∀ n, cm.onClose = some n → ∀ w₁, ∃ w₂, ((I.handler n m).exec (Op.sem env)).run w₁ = (.ok (), w₂)) :
    Handled env m' c' ((dispatch env I q c).run w).2 [] ((dispatch env I q' c').run ((dispatch env I q c).run w).2) := by
  have hc := C37_close env hs I q m c ha hr w h1 h2 h3 h4
  refine C36_unknown env hs I q' m' c' ha' .commClose hr' (.inr rfl) _ (.inr ⟨id, h1', h2, ?_⟩)
  cases hcl : cm.onClose with
  | none =>
    rw [hcl] at hc
    obtain ⟨s', he, hh⟩ := hc
    rw [hh.comm]
    show alGet id s'.reg = none
    rw [he.reg, if_pos rfl]
  | some n =>
    rw [hcl] at hc
    obtain ⟨w₁, _, hok, _⟩ := hc
    obtain ⟨w₂, hr⟩ := hret n hcl w₁
    obtain ⟨s', he, hh⟩ := hok w₂ hr
    rw [hh.comm]
    show alGet id s'.reg = none
    rw [he.reg, if_pos rfl]

example : ∃ q m, Accepted sampleEnv.C sampleEnv.J sampleEnv.auth q m ∧
    HandlerCourse sampleEnv sampleInterp q m .shell { sampleWorld with comm := sampleComms } (some 6)
      (fun s s' => Erased s (lit "c2") s') ∧
    Handled sampleEnv m .shell ((dispatch sampleEnv sampleInterp q .shell).run { sampleWorld with comm := sampleComms }).2 []
      ((dispatch sampleEnv sampleInterp q .shell).run
        ((dispatch sampleEnv sampleInterp q .shell).run { sampleWorld with comm := sampleComms }).2) := by
  obtain ⟨q, hq⟩ := sampleReq_accepted "comm_close" (.obj [(lit "comm_id", .str (lit "c2"))]) (by decide) (by decide)
    (by decide +kernel)
  refine ⟨q, _, hq, C37_close sampleEnv sampleEnv_sane sampleInterp q _ .shell hq rfl
    { sampleWorld with comm := sampleComms } (id := lit "c2") (a := 3) (cm := ⟨1, lit "c2", some false, some 5, some 6⟩)
    rfl (by decide) rfl rfl, C37_twice sampleEnv sampleEnv_sane sampleInterp q q _ _ .shell .shell hq rfl hq rfl _
    (id := lit "c2") (a := 3) (cm := ⟨1, lit "c2", some false, some 5, some 6⟩) rfl (by decide) rfl rfl rfl ?_⟩
  intro n _ w₁
  exact ⟨w₁, rfl⟩

/-! ## C38: moving and copying -/

/-- C38: the next address is free and different from all in use, in whatever way the state was reached. -/
theorem C38_fresh {as : List CommAct} {s : Comms} (ht : Trace Comms.empty as s) :
    alGet s.next s.objs = none ∧ ∀ a c, alGet a s.objs = some c → a ≠ s.next := by
  have hb := trace_below ht
  refine ⟨?_, fun a c h => Nat.ne_of_lt (hb.1 a c h)⟩
  cases h : alGet s.next s.objs with
  | none => rfl
  | some c => exact absurd (hb.1 _ _ h) (Nat.lt_irrefl _)

/-- C38: constructing a comm from another one by moving transfers identifier, target, handlers and registration. -/
theorem C38_move {as : List CommAct} {s : Comms} (ht : Trace Comms.empty as s) {a : Nat} {c : Comm}
    (hc : alGet a s.objs = some c) (hu : Usable s c.target) (g : Str) :
    ∃ b s', CommOp.apply g s (.move a) = .ok (.addr b, s') ∧ MovedTo s a b c s' ∧ b ≠ a := by
  have hn := (C38_fresh ht).2 a c hc
  obtain ⟨s', h, hm⟩ := moveTo hc hu hn
  exact ⟨s.next, s', by simp [CommOp.apply, h], hm, hn.symm⟩

/-- C38: copying a comm gives a comm with a new identifier, the same target and no handlers; the original stays as
it is. -/
theorem C38_copy (s : Comms) {a : Nat} {c : Comm} (hc : alGet a s.objs = some c) (hu : Usable s c.target) (g : Str) :
    ∃ b s', CommOp.apply g s (.copy a) = .ok (.addr b, s') ∧ Created s b ⟨c.target, g, some false, none, none⟩ s' := by
  obtain ⟨s', h, hcr⟩ := copyTo hc hu g
  exact ⟨s.next, s', by simp [CommOp.apply, h], hcr⟩

/-- C38: assigning by moving from another comm likewise; what the assigned comm was registered as, is not any more. -/
theorem C38_move_assign (s : Comms) {a b : Nat} {c d : Comm} (hc : alGet a s.objs = some c) (hd : alGet b s.objs = some d)
    (hu : Usable s c.target) (hn : b ≠ a) (g : Str) :
    ∃ s', CommOp.apply g s (.moveAssign b a) = .ok (.unit, s') ∧ MovedOnto s a b c d s' := by
  obtain ⟨s', h, hm⟩ := moveOnto hc hd hu hn
  exact ⟨s', by simp [CommOp.apply, h], hm⟩

/-- C38: assigning by copying gives the comm a new identifier and the target of the other; it keeps its handlers. -/
theorem C38_copy_assign (s : Comms) {a b : Nat} {c d : Comm} (hc : alGet a s.objs = some c) (hd : alGet b s.objs = some d)
    (hu : Usable s c.target) (g : Str) :
    ∃ s', CommOp.apply g s (.copyAssign b a) = .ok (.unit, s') ∧ CopiedOnto s b c d g s' := by
  obtain ⟨s', h, hm⟩ := copyOnto hc hd hu g
  exact ⟨s', by simp [CommOp.apply, h], hm⟩

/-- C38: without a usable target each of these is undefined. -/
theorem C38_undefined (s : Comms) {a b : Nat} {c d : Comm} (hc : alGet a s.objs = some c) (hd : alGet b s.objs = some d)
    (hu : ¬ Usable s c.target) (g : Str) (o : CommOp)
    (ho : o ∈ [CommOp.move a, .copy a, .moveAssign b a, .copyAssign b a]) : ∃ why, CommOp.apply g s o = .ub why := by
  have key : ∀ s' : Comms, s'.nodes = s.nodes → ¬ Usable s' c.target := by
    rintro s' h ⟨n, h1, h2⟩
    exact hu ⟨n, by rw [← h]; exact h1, h2⟩
  simp only [List.mem_cons, List.not_mem_nil, or_false] at ho
  rcases ho with rfl | rfl | rfl | rfl
  · obtain ⟨why, h⟩ := (unusable_ub (key ((s.newObj ⟨c.target, c.id, some false, c.onMessage, c.onClose⟩).setObj a
      { c with moved := some true, onMessage := none, onClose := none }) rfl) c.id s.next).1
    exact ⟨why, by simp only [CommOp.apply, Comms.moveConstruct, Comms.obj, hc, Res.bind_ok, h, Res.bind_ub]⟩
  · obtain ⟨why, h⟩ := (unusable_ub (key (s.newObj ⟨c.target, g, some false, none, none⟩) rfl) g s.next).1
    exact ⟨why, by simp only [CommOp.apply, Comms.copyConstruct, Comms.obj, hc, Res.bind_ok, h, Res.bind_ub]⟩
  · obtain ⟨why, h⟩ := (unusable_ub (key ((s.setObj a { c with onMessage := none, onClose := none }).setObj b
      { d with onMessage := c.onMessage, onClose := c.onClose, target := c.target }) rfl) d.id 0).2
    exact ⟨why, by simp only [CommOp.apply, Comms.moveAssign, Comms.obj, hc, hd, Res.bind_ok, h, Res.bind_ub]⟩
  · obtain ⟨why, h⟩ := (unusable_ub (key (s.setObj b { d with target := c.target }) rfl) d.id 0).2
    exact ⟨why, by simp only [CommOp.apply, Comms.copyAssign, Comms.obj, hc, hd, Res.bind_ok, h, Res.bind_ub]⟩

/-- The comm opened by the kernel of the example above is moved on, with its handler. -/
example : ∃ s b s', Trace Comms.empty commActs s ∧ CommOp.apply [] s (.move 2) = .ok (.addr b, s') ∧
    alGet b s'.objs = some ⟨0, lit "c1", some false, some 7, none⟩ ∧ alGet (lit "c1") s'.reg = some b := by
  have ht := (C34_kernel sampleEnv commInterp commConf commScript 0 [] [] _ rfl).1
  rw [commActs_done] at ht
  obtain ⟨b, s', h, hm, _⟩ := C38_move ht (a := 2) (c := ⟨0, lit "c1", some false, some 7, none⟩) (by decide +kernel)
    ⟨⟨lit "t", some 0, true⟩, by decide +kernel, rfl⟩ []
  exact ⟨_, b, s', ht, h, by rw [hm.objs, if_pos rfl], by rw [hm.reg]; rfl⟩

example : ∃ b s', CommOp.apply (lit "g") sampleComms (.copy 3) = .ok (.addr b, s') ∧
    alGet (lit "g") s'.reg = some b ∧ alGet (lit "c2") s'.reg = some 3 ∧
    alGet b s'.objs = some ⟨1, lit "g", some false, none, none⟩ := by
  obtain ⟨b, s', h, hm⟩ := C38_copy sampleComms (a := 3) (c := ⟨1, lit "c2", some false, some 5, some 6⟩) rfl
    ⟨_, rfl, rfl⟩ (lit "g")
  refine ⟨b, s', h, by rw [hm.reg, if_pos rfl], ?_, by rw [hm.objs, if_pos rfl]⟩
  rw [hm.reg, if_neg (by decide)]; rfl

example : ∃ s', CommOp.apply [] sampleComms (.moveAssign 2 3) = .ok (.unit, s') ∧
    alGet (lit "c1") s'.reg = none ∧ alGet (lit "c2") s'.reg = some 2 ∧
    alGet 2 s'.objs = some ⟨1, lit "c2", some false, some 5, some 6⟩ := by
  obtain ⟨s', h, hm⟩ := C38_move_assign sampleComms (a := 3) (b := 2) rfl rfl ⟨_, rfl, rfl⟩ (by decide) []
  refine ⟨s', h, ?_, ?_, by rw [hm.objs, if_pos rfl]⟩ <;> rw [hm.reg] <;> rfl

example : ∃ s', CommOp.apply (lit "g") sampleComms (.copyAssign 3 2) = .ok (.unit, s') ∧
    alGet (lit "c1") s'.reg = some 2 ∧ alGet (lit "c2") s'.reg = none ∧
    alGet 3 s'.objs = some ⟨0, lit "g", some false, some 5, some 6⟩ := by
  obtain ⟨s', h, hm⟩ := C38_copy_assign sampleComms (a := 2) (b := 3) rfl rfl ⟨_, rfl, rfl⟩ (lit "g")
  refine ⟨s', h, ?_, ?_, by rw [hm.objs, if_pos rfl]⟩ <;> rw [hm.reg] <;> rfl

/-- A comm whose target was unregistered. -/
example : ∃ why, CommOp.apply [] (sampleComms.unregisterTarget (lit "u")) (.move 3) = .ub why :=
  C38_undefined _ (a := 3) (b := 2) (c := ⟨1, lit "c2", some false, some 5, some 6⟩)
    (d := ⟨0, lit "c1", some false, none, none⟩) rfl rfl (by rintro ⟨n, h, _⟩; cases h) [] _ (by simp)

/-! ## C39: outgoing messages -/

/-- C39: `open`, `close` and `send` publish exactly one message of the right type, attributed to the current shell
request, with the identifier of the comm, the data and (for `open` only) the name of its target as content, and with
the given metadata and buffers; if that cannot be printed they throw and publish nothing. -/
theorem C39_send (env : Env) (hs : Sane env) (k : CommMsg) (a : Nat) (md data : Json) (bufs : List Frame) (w : World σ)
    (hp : Parsed (w.parent .shell).header) {cm : Comm} {n : Target} (hc : alGet a w.comm.objs = some cm)
    (hn : alGet cm.target w.comm.nodes = some n) (hm : n.managed = true) :
    (∃ e w', IsPub env .shell (lit (commType k)) (w.parent .shell).header md (CommContent k cm.id n.name data) bufs e ∧
      ((Op.commSend k a md data bufs).sem env).run w = (.ok .unit, w') ∧ Only w [e] w') ∨
    (¬ (Printable env.eh md ∧ Printable env.eh (CommContent k cm.id n.name data)) ∧
      ∃ w', ((Op.commSend k a md data bufs).sem env).run w = (.exc .typeError, w') ∧ Only w [] w') := by
  have ho : w.comm.outgoing a k data = .ok (lit (commType k), CommContent k cm.id n.name data) := by
    cases k <;> simp [Comms.outgoing, Comms.obj, hc, Comms.node, hn, hm, commContent, CommMsg.type, commType, CommContent,
      Json.put, Json.insertKV, show lit "data" ≠ lit "comm_id" by decide, show lit "target_name" ≠ lit "comm_id" by decide,
      show lit "data" ≠ lit "target_name" by decide, show strLt (lit "target_name") (lit "comm_id") = false by decide,
      show strLt (lit "data") (lit "comm_id") = false by decide, show strLt (lit "data") (lit "target_name") = true by decide]
  have hrun : ((Op.commSend k a md data bufs).sem env).run w =
      K.andThen ((publishMessage env (lit (commType k)) md (CommContent k cm.id n.name data) bufs .shell).run w)
        fun _ w' => (.ok .unit, w') := by
    simp only [Op.sem, K.run_bind, K.run_readR, ho, K.andThen_ok, K.run_pure]
  have hty : Utf8 (lit (commType k)) := by cases k <;> exact utf8_lit (by decide)
  by_cases hpr : Printable env.eh md ∧ Printable env.eh (CommContent k cm.id n.name data)
  · obtain ⟨wire, _, h⟩ := publishMessage_ok hs bufs hp hty hpr.1 hpr.2
    rw [h, K.andThen_ok] at hrun
    exact .inl ⟨_, _, ⟨_, wire, rfl, rfl, hdrAt_wf env w _, rfl, rfl, rfl, rfl⟩, hrun,
      ⟨rfl, rfl, rfl, rfl, rfl, rfl, rfl, rfl, rfl⟩⟩
  · rcases publishMessage_cases hs.log (lit (commType k)) md (CommContent k cm.id n.name data) bufs .shell w with
      ⟨wire, _, h⟩ | h
    · rw [h, K.andThen_ok] at hrun
      exact .inl ⟨_, _, ⟨_, wire, rfl, rfl, hdrAt_wf env w _, rfl, rfl, rfl, rfl⟩, hrun,
        ⟨rfl, rfl, rfl, rfl, rfl, rfl, rfl, rfl, rfl⟩⟩
    · rw [h, K.andThen_exc] at hrun
      exact .inr ⟨hpr, _, hrun, ⟨rfl, rfl, rfl, rfl, rfl, rfl, rfl, rfl, by simp [tick]⟩⟩

/-- Finding (C39): sending on a dead comm, or one whose target is gone or has no manager, is undefined behaviour. -/
theorem C39_undefined (env : Env) (k : CommMsg) (a : Nat) (md data : Json) (bufs : List Frame) (w : World σ)
    (h : ∀ cm, alGet a w.comm.objs = some cm → ¬ Usable w.comm cm.target) :
    ∃ why, ((Op.commSend k a md data bufs).sem env).run w = (.ub why, w) := by
  have : ∃ why, w.comm.outgoing a k data = .ub why := by
    unfold Comms.outgoing Comms.obj Comms.node
    cases hc : alGet a w.comm.objs with
    | none => exact ⟨_, rfl⟩
    | some cm =>
      simp only [Res.bind_ok]
      cases hn : alGet cm.target w.comm.nodes with
      | none => exact ⟨_, rfl⟩
      | some n =>
        simp only [Res.bind_ok]
        cases hm : n.managed with
        | false => exact ⟨_, rfl⟩
        | true => exact absurd ⟨n, hn, hm⟩ (h cm hc)
  obtain ⟨why, hw⟩ := this
  exact ⟨why, by simp only [Op.sem, K.run_bind, K.run_readR, hw, K.andThen_ub]⟩

example : ∃ e w', IsPub sampleEnv .shell (lit "comm_open") (.obj []) (.obj [])
      (.obj [(lit "comm_id", .str (lit "c2")), (lit "data", .int 4), (lit "target_name", .str (lit "u"))]) [[1, 2]] e ∧
    ((Op.commSend .open_ 3 (.obj []) (.int 4) [[1, 2]]).sem sampleEnv).run { sampleWorld with comm := sampleComms } =
      (.ok .unit, w') ∧ Only { sampleWorld with comm := sampleComms } [e] w' := by
  rcases C39_send sampleEnv sampleEnv_sane .open_ 3 (.obj []) (.int 4) [[1, 2]] { sampleWorld with comm := sampleComms }
    (sampleWorld_parents .shell) (cm := ⟨1, lit "c2", some false, some 5, some 6⟩) (n := ⟨lit "u", some 1, true⟩) rfl rfl rfl
    with h | ⟨h, _⟩
  · exact h
  · refine absurd ⟨?_, ?_⟩ h
    · exact emptyObj_printable _
    · exact ⟨by decide, fun _ => (jsonUtf8_iff _).2 (by decide +kernel)⟩

example : ∃ why, ((Op.commSend .msg 9 (.obj []) (.int 4) []).sem sampleEnv).run sampleWorld = (.ub why, sampleWorld) :=
  C39_undefined sampleEnv .msg 9 _ _ _ _ (by intro cm h; cases h)

/-! ## C40: hazards -/

/-- C40: a comm made for a target has an uninitialised flag; destroying it as it is, is undefined. -/
theorem C40_uninitialised (s s' : Comms) (o : CommOp) (g g' : Str) (a t : Nat) (id : Str) (ho : o = .new t ∨ o = .newId t id)
    (h : o.apply g s = .ok (.addr a, s')) : ∃ why, CommOp.apply g' s' (.destroy a) = .ub why := by
  have key : ∀ i, s.construct t i = .ok (a, s') → ∃ why, CommOp.apply g' s' (.destroy a) = .ub why := by
    intro i h
    unfold Comms.construct at h
    obtain ⟨x, hx, h⟩ := Res.bind_eq_ok.1 h
    simp only [Res.pure_def, Res.ok.injEq, Prod.mk.injEq] at h
    obtain ⟨rfl, rfl⟩ := h
    obtain ⟨_, rfl⟩ := register_eq hx
    refine ⟨"uninitialised m_moved_from read by ~xcomm", ?_⟩
    simp [CommOp.apply, Comms.destroy, Comms.obj, Comms.newObj, alGet_set]
  rcases ho with rfl | rfl
  · obtain ⟨r, hr, h⟩ := Res.bind_eq_ok.1 h
    simp only [Res.pure_def, Res.ok.injEq, Prod.mk.injEq, Val.addr.injEq] at h
    obtain ⟨rfl, rfl⟩ := h
    exact key g hr
  · simp only [CommOp.apply] at h
    split at h
    · obtain ⟨r, hr, h⟩ := Res.bind_eq_ok.1 h
      simp only [Res.pure_def, Res.ok.injEq, Prod.mk.injEq, Val.addr.injEq] at h
      obtain ⟨rfl, rfl⟩ := h
      exact key id hr
    · cases h

example : ∃ s', CommOp.apply [] openComms (.newId 0 (lit "x")) = .ok (.addr 3, s') := ⟨_, rfl⟩

/-- C40: assigning to a moved-from comm `d` takes the registration from whichever live comm has its identifier
now. -/
theorem C40_assign_moved_from (s : Comms) {a b x : Nat} {c d e : Comm} (hc : alGet a s.objs = some c)
    (hd : alGet b s.objs = some d) (hu : Usable s c.target) (hn : b ≠ a) (he : Alive s x e) (hxa : x ≠ a) (hxb : x ≠ b)
    (hid : e.id = d.id) (hci : c.id ≠ d.id) (g : Str) :
    ∃ s', CommOp.apply g s (.moveAssign b a) = .ok (.unit, s') ∧ Alive s' x e ∧ alGet e.id s'.reg = none := by
  obtain ⟨s', h, hm⟩ := C38_move_assign s hc hd hu hn g
  refine ⟨s', h, ⟨?_, he.2⟩, ?_⟩
  · rw [hm.objs, if_neg hxb, if_neg hxa]; exact he.1
  · rw [hm.reg, if_neg (by rw [hid]; exact fun h => hci h.symm), if_pos hid]

/-- Two comms of a target, made and moved as `comm_open` does. -/
def twoComms : List CommAct :=
  [.op (.registerTarget (lit "t") (some 0)) [], .op (.newId 0 (lit "x")) [], .op (.move 1) [], .op (.destroy 1) [],
   .op (.newId 0 (lit "y")) [], .op (.move 3) [], .op (.destroy 3) []]

/-- Run some acts. -/
def doAll (s : Comms) : List CommAct → Option Comms
  | [] => some s
  | .op o g :: r => match o.apply g s with
    | .ok x => doAll x.2 r
    | _ => none
  | .opened c :: r => match s.openLookup c with
    | .ok x => doAll x.2.2 r
    | _ => none
  | .closed id :: r => doAll { s with reg := alDel id s.reg } r

theorem doAll_trace {s s' : Comms} {as : List CommAct} (h : doAll s as = some s') {s₀ : Comms} {p : List CommAct}
    (hp : Trace s₀ p s) : Trace s₀ (p ++ as) s' := by
  induction as generalizing s p with
  | nil => simp only [doAll, Option.some.injEq] at h; subst h; simpa using hp
  | cons act r ih =>
    rw [show p ++ act :: r = (p ++ [act]) ++ r by simp]
    cases act with
    | op o g =>
      simp only [doAll] at h
      cases hx : o.apply g s with
      | ok x => rw [hx] at h; exact ih h (hp.snoc ⟨x.1, hx⟩)
      | _ => rw [hx] at h; cases h
    | opened c =>
      simp only [doAll] at h
      cases hx : s.openLookup c with
      | ok x => rw [hx] at h; exact ih h (hp.snoc ⟨x.1, x.2.1, hx⟩)
      | _ => rw [hx] at h; cases h
    | closed id => exact ih h (hp.snoc rfl)

/-- C40: swapping two registered comms with `std::swap` loses the registration of one of them. -/
theorem C40_swap_witness : ∃ s c, Trace Comms.empty (twoComms ++ [.op (.move 2) [], .op (.moveAssign 2 4) [],
      .op (.moveAssign 4 5) [], .op (.destroy 5) []]) s ∧
    Alive s 2 c ∧ c.id = lit "y" ∧ alGet (lit "y") s.reg = none := by
  refine ⟨⟨[(2, ⟨0, lit "y", some false, none, none⟩), (4, ⟨0, lit "x", some false, none, none⟩)], [(lit "x", 4)],
    [(lit "t", 0)], [(0, ⟨lit "t", some 0, true⟩)], 6⟩, _, doAll_trace (p := []) (by decide +kernel) .nil, ⟨rfl, by decide⟩,
    rfl, rfl⟩

/-- Before it, everything was in order. -/
example : ∃ s, Trace Comms.empty twoComms s ∧ alGet (lit "x") s.reg = some 2 ∧ alGet (lit "y") s.reg = some 4 :=
  ⟨⟨[(2, ⟨0, lit "x", some false, none, none⟩), (4, ⟨0, lit "y", some false, none, none⟩)], [(lit "x", 2), (lit "y", 4)],
    [(lit "t", 0)], [(0, ⟨lit "t", some 0, true⟩)], 5⟩, doAll_trace (p := []) (by decide +kernel) .nil, rfl, rfl⟩

/-- A moved-from comm, and the comm its identifier went to. -/
example : ∃ (s : Comms) (d e : Comm), alGet 1 s.objs = some d ∧ d.moved = some true ∧ Alive s 2 e ∧ e.id = d.id :=
  ⟨⟨[(1, ⟨0, lit "x", some true, none, none⟩), (2, ⟨0, lit "x", some false, none, none⟩)], [(lit "x", 2)], [], [], 3⟩,
    _, _, rfl, rfl, ⟨rfl, by decide⟩, rfl⟩

/-- C40: a comm moved to itself and then destroyed leaves a dangling entry in the registry, so that a message for it
is undefined behaviour. -/
theorem C40_self_move (s : Comms) {a : Nat} {c : Comm} (hc : alGet a s.objs = some c) (hu : Usable s c.target) (g : Str) :
    ∃ s₁ s₂, CommOp.apply g s (.moveAssign a a) = .ok (.unit, s₁) ∧ CommOp.apply g s₁ (.destroy a) = .ok (.unit, s₂) ∧
      alGet c.id s₂.reg = some a ∧ alGet a s₂.objs = none ∧ ¬ RegistryLive s₂ := by
  obtain ⟨s₁, h1, ho, hr⟩ := moveSelf hc hu
  rcases destroyed_or (s := s₁) a with ⟨s₂, h2, hd⟩ | ⟨hi, _⟩
  · have hreg : s₂.reg = s₁.reg := by
      obtain ⟨c', hc', h | h⟩ := hd.reg
      · exact h.2
      · rw [ho, if_pos rfl] at hc'
        cases hc'
        simp at h
    have hin : alGet c.id s₂.reg = some a := by rw [hreg, hr, if_pos rfl]
    have hout : alGet a s₂.objs = none := by rw [hd.objs, if_pos rfl]
    refine ⟨s₁, s₂, by simp [CommOp.apply, h1], by simp [CommOp.apply, h2], hin, hout, fun hl => ?_⟩
    have hm : ∀ l : List (Str × Nat), alGet c.id l = some a → (c.id, a) ∈ l := by
      intro l
      induction l with
      | nil => intro h; cases h
      | cons x l ih =>
        intro h
        obtain ⟨k, v⟩ := x
        simp only [alGet] at h
        split at h
        · rename_i hk
          cases h
          simp [hk]
        · exact List.mem_cons_of_mem _ (ih h)
    obtain ⟨_, _, h, _⟩ := hl.2 _ _ (hm _ hin)
    rw [hout] at h; cases h
  · rcases hi with hi | ⟨c', hc', hi⟩
    · rw [ho, if_pos rfl] at hi; cases hi
    · rw [ho, if_pos rfl] at hc'
      cases hc'
      simp at hi

example : alGet 2 sampleComms.objs = some ⟨0, lit "c1", some false, none, none⟩ ∧ Usable sampleComms 0 :=
  ⟨rfl, _, rfl, rfl⟩

/-- C40: once the target of a comm that was moved to (or copied) is unregistered, destroying the comm is undefined. -/
theorem C40_unregistered_target (s : Comms) {a t : Nat} {c : Comm} {name : Str} (hc : alGet a s.objs = some c)
    (hm : c.moved = some false) (ht : c.target = t) (hn : alGet name s.names = some t) (g : Str) :
    ∃ s₁ why, CommOp.apply g s (.unregisterTarget name) = .ok (.unit, s₁) ∧ CommOp.apply g s₁ (.destroy a) = .ub why := by
  refine ⟨s.unregisterTarget name, ?_⟩
  have hu : ¬ Usable (s.unregisterTarget name) c.target := by
    rintro ⟨n, h, _⟩
    simp only [Comms.unregisterTarget, hn, ht, alGet_del, if_true] at h
    cases h
  obtain ⟨why, h⟩ := (unusable_ub hu c.id 0).2
  refine ⟨why, rfl, ?_⟩
  have : alGet a (s.unregisterTarget name).objs = some c := by simp only [Comms.unregisterTarget, hn]; exact hc
  simp only [CommOp.apply, Comms.destroy, Comms.obj, this, Res.bind_ok, hm, h, Res.bind_ub]

example : alGet 2 sampleComms.objs = some ⟨0, lit "c1", some false, none, none⟩ ∧
    alGet (lit "t") sampleComms.names = some 0 := ⟨rfl, rfl⟩

/-- C40: asking for the target of a name that is not registered gives a target without manager: every comm made for it is undefined. -/
theorem C40_unknown_target (s : Comms) {name : Str} (hn : alGet name s.names = none) (g : Str) :
    ∃ t s₁, CommOp.apply g s (.target name) = .ok (.addr t, s₁) ∧ alGet name s₁.names = some t ∧
      (∀ g', ∃ why, CommOp.apply g' s₁ (.new t) = .ub why) ∧
      (∀ g' id, ∃ why, CommOp.apply g' s₁ (.newId t id) = .ub why) := by
  refine ⟨(s.targetPtr name).1, (s.targetPtr name).2, rfl, ?_, ?_⟩
  · simp [Comms.targetPtr, hn, alGet_set]
  have hu : ∀ c, ¬ Usable ((s.targetPtr name).2.newObj c) (s.targetPtr name).1 := by
    rintro c ⟨n, h, hm⟩
    simp only [Comms.targetPtr, hn, Comms.newObj, alGet_set, if_true, Option.some.injEq] at h
    rw [← h] at hm
    cases hm
  have key : ∀ id, ∃ why, (s.targetPtr name).2.construct (s.targetPtr name).1 id = .ub why := by
    intro id
    obtain ⟨why, h⟩ := (unusable_ub (hu ⟨(s.targetPtr name).1, id, none, none, none⟩) id (s.targetPtr name).2.next).1
    exact ⟨why, by simp only [Comms.construct, h, Res.bind_ub]⟩
  refine ⟨fun g' => ?_, fun g' id => ?_⟩
  · obtain ⟨why, h⟩ := key g'
    exact ⟨why, by simp only [CommOp.apply, h, Res.bind_ub]⟩
  · by_cases hl : id.length ≤ 55
    · obtain ⟨why, h⟩ := key id
      exact ⟨why, by simp only [CommOp.apply, hl, if_true, h, Res.bind_ub]⟩
    · exact ⟨_, by simp only [CommOp.apply, hl, if_false]; rfl⟩

/-- C40: and from then on a client that opens a comm for that name crashes the kernel. -/
theorem C40_unknown_target_open (env : Env) (hs : Sane env) (I : Interp σ) (q : Multipart) (m : XMessage) (c : Chan)
    (ha : Accepted env.C env.J env.auth q m) (w : World σ) (hr : IsReq m .commOpen) (s : Comms) {name id : Str} (hn : alGet name s.names = none)
    (g : Str) {v : Val} (hw : CommOp.apply g s (.target name) = .ok (v, w.comm))
    (h1 : m.body.content.find? (lit "target_name") = some (.str name))
    (h2 : m.body.content.find? (lit "comm_id") = some (.str id)) (h3 : id.length ≤ 55) :
    ∃ why w', (dispatch env I q c).run w = (.ub why, w') := by
  have hw : w.comm = (s.targetPtr name).2 := by
    simp only [CommOp.apply, Res.ok.injEq, Prod.mk.injEq] at hw
    exact hw.2.symm
  exact open_unmanaged hs I c ha w hr (t := s.next) (n := ⟨[], none, false⟩) h1 h2 h3
    (by rw [hw]; simp [Comms.targetPtr, hn, alGet_set]) (by rw [hw]; simp [Comms.targetPtr, hn, alGet_set]) rfl

example : alGet (lit "nobody") sampleComms.names = none ∧
    CommOp.apply [] sampleComms (.target (lit "nobody")) = .ok (.addr sampleComms.next, (sampleComms.targetPtr (lit "nobody")).2) :=
  ⟨rfl, rfl⟩

/-- C40: the kernel itself breaks the discipline when a client opens an identifier again that it closed while user
code keeps the comm: when the old comm is destroyed, the new one is registered no more. -/
theorem C40_reopen_witness : ∃ s c, Trace Comms.empty [.op (.registerTarget (lit "t") (some 0)) [], .opened openContent,
      .op (.move 1) [], .op (.destroy 1) [], .closed (lit "c1"), .opened openContent, .op (.move 3) [], .op (.destroy 3) [],
      .op (.destroy 2) []] s ∧ Alive s 4 c ∧ c.id = lit "c1" ∧ alGet (lit "c1") s.reg = none := by
  refine ⟨⟨[(4, ⟨0, lit "c1", some false, none, none⟩)], [], [(lit "t", 0)], [(0, ⟨lit "t", some 0, true⟩)], 5⟩, _,
    doAll_trace (p := []) (by decide +kernel) .nil, ⟨rfl, by decide⟩, rfl, rfl⟩

/-- C40: a callback that just returns, without moving the comm it was given, makes comm_open undefined. -/
theorem C40_callback_returns (env : Env) (hs : Sane env) (I : Interp σ) (q : Multipart) (m : XMessage) (c : Chan)
    (ha : Accepted env.C env.J env.auth q m) (hr : IsReq m .commOpen) (w : World σ) {name id : Str} {t cb : Nat} {n : Target}
    (h1 : m.body.content.find? (lit "target_name") = some (.str name))
    (h2 : m.body.content.find? (lit "comm_id") = some (.str id)) (h3 : id.length ≤ 55)
    (h4 : alGet name w.comm.names = some t) (h5 : alGet t w.comm.nodes = some n) (h6 : n.managed = true)
    (h7 : n.callback = some cb) (h8 : ∀ a, I.target cb a m = .ret ()) :
    ∃ why w', (dispatch env I q c).run w = (.ub why, w') := by
  obtain ⟨a, s₁, w₁, hcr, hat, hok, _⟩ := C35_open env hs I q m c ha hr w h1 h2 h3 h4 h5 h6 h7
  have hrun : ((I.target cb a m).exec (Op.sem env)).run w₁ = (.ok (), w₁) := by
    rw [h8]; simp only [Prog.exec, K.run_pure]
  rcases hok w₁ hrun with ⟨s', hd, _⟩ | ⟨_, why, h⟩
  · obtain ⟨c', hc', h | h⟩ := hd.reg <;> rw [hat.comm] at hc' <;> simp only [hcr.objs, if_true] at hc' <;> cases hc' <;>
      simp at h
  · exact ⟨why, _, h⟩

example : ∃ q m why w', Accepted sampleEnv.C sampleEnv.J sampleEnv.auth q m ∧
    (dispatch sampleEnv sampleInterp q .shell).run { sampleWorld with comm := openComms } = (.ub why, w') := by
  obtain ⟨q, hq⟩ := sampleReq_accepted "comm_open" openContent (by decide) (by decide) (by decide +kernel)
  obtain ⟨why, w', h⟩ := C40_callback_returns sampleEnv sampleEnv_sane sampleInterp q _ .shell hq rfl
    { sampleWorld with comm := openComms } (name := lit "t") (id := lit "c1") (t := 0) (cb := 0) (n := ⟨lit "t", some 0, true⟩) rfl rfl
    (by decide) rfl rfl rfl rfl fun _ => rfl
  exact ⟨q, _, why, w', hq, h⟩

example : ∃ q m why w', Accepted sampleEnv.C sampleEnv.J sampleEnv.auth q m ∧
    (dispatch sampleEnv sampleInterp q .shell).run { sampleWorld with comm := (Comms.empty.targetPtr (lit "t")).2 } = (.ub why, w') := by
  obtain ⟨q, hq⟩ := sampleReq_accepted "comm_open" openContent (by decide) (by decide) (by decide +kernel)
  obtain ⟨why, w', h⟩ := C40_unknown_target_open sampleEnv sampleEnv_sane sampleInterp q _ .shell hq
    { sampleWorld with comm := (Comms.empty.targetPtr (lit "t")).2 } rfl Comms.empty (name := lit "t") (id := lit "c1") rfl []
    (v := .addr 0) rfl rfl rfl (by decide)
  exact ⟨q, _, why, w', hq, h⟩

end Xeus
