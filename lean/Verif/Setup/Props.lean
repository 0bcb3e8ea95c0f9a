import Verif.Setup.Lemmas
import Verif.Wire.Props
import Verif.JsonCodec

/-!
# Properties C65, C66, C67, C70, C75: connection file, sockets, ports, registry, key

Only the property theorems and the `example`s that instantiate their hypotheses.
-/

namespace Xeus

open Xeus.Spec Setup Setup.Spec

/-! ## C65 -/

/-- C65: a connection file loads exactly if it holds a document that describes a configuration, which is then the one
obtained. -/
theorem C65_load (read : Str → Option Json) (hr : ∀ f doc, read f = some doc → doc.canon = true) (file : Str) (c : Config) :
    loadConfiguration read file = .ok c ↔ ∃ doc, read file = some doc ∧ Describes doc c := by
  unfold loadConfiguration
  cases h : read file with
  | none => simp
  | some doc => simp [configOf_iff (hr _ _ h)]

/-- C65: there is no other configuration of a document, so what is loaded is determined by it. -/
theorem C65_unique (doc : Json) (hd : doc.canon = true) (c c' : Config) (h : Describes doc c) (h' : Describes doc c') :
    c = c' := by
  rw [← configOf_iff hd] at h h'
  exact Res.ok.inj (h.symm.trans h')

/-- C65: everything else is an exception, a parse error if there is no document, a type error if it describes no
configuration, unless a port is a double that is no `int`. -/
theorem C65_otherwise (read : Str → Option Json) (hr : ∀ f doc, read f = some doc → doc.canon = true) (file : Str) :
    (read file = none → loadConfiguration read file = .exc .parseError) ∧
    (∀ doc, read file = some doc → (∀ c, ¬ Describes doc c) → (∀ k ∈ portNames, ¬ WildMember doc k) →
      loadConfiguration read file = .exc .typeError) := by
  refine ⟨fun h => by simp [loadConfiguration, h], fun doc h hn hw => ?_⟩
  simp only [loadConfiguration, h]
  rcases fair_configOf (hr _ _ h) with ⟨c, hc⟩ | hc | ⟨⟨k, hk, hk'⟩, _⟩
  · exact absurd ((configOf_iff (hr _ _ h) c).1 hc) (hn c)
  · exact hc
  · exact absurd hk' (hw k hk)

/-- C65: the conversion of such a double is undefined: a document is read into undefined behaviour only if it has one, and
does so if all members before it are as they should be. -/
theorem C65_undefined (read : Str → Option Json) (hr : ∀ f doc, read f = some doc → doc.canon = true) (file : Str) (doc : Json)
    (hd : read file = some doc) :
    ((∃ w, loadConfiguration read file = .ub w) → ∃ k ∈ portNames, WildMember doc k) ∧
    (∀ t ip, Member doc "transport" (.str t) → Member doc "ip" (.str ip) →
      (∀ k ∈ portNames, (∃ s, PortMember doc k s) ∨ WildMember doc k) → (∃ k ∈ portNames, WildMember doc k) →
      ∃ w, loadConfiguration read file = .ub w) := by
  have hc := hr _ _ hd
  simp only [loadConfiguration, hd]
  constructor
  · rintro ⟨w, hw⟩
    rcases fair_configOf hc with ⟨c, h⟩ | h | ⟨h, _⟩
    · rw [h] at hw; cases hw
    · rw [h] at hw; cases hw
    · exact h
  · intro t ip ht hip hall hex
    rw [← strAt_iff hc] at ht hip
    have hp : ∀ k ∈ portNames, (∃ s, portAt doc k = .ok s) ∨ ∃ w, portAt doc k = .ub w := fun k hk => port_or hc (hall k hk)
    have hu : ∃ k ∈ portNames, ∃ w, portAt doc k = .ub w := by
      obtain ⟨k, hk, h⟩ := hex
      exact ⟨k, hk, portAt_wild hc h⟩
    simp only [portNames, List.mem_cons, List.not_mem_nil, or_false, forall_eq_or_imp, forall_eq, exists_eq_or_imp,
      exists_eq_left] at hp hu
    simp only [configOf, ht, hip, Res.bind_ok]
    obtain ⟨h1, h2, h3, h4, h5⟩ := hp
    rcases h1 with ⟨s1, h1⟩ | ⟨w1, h1⟩
    rotate_left
    · exact ⟨w1, by rw [h1]; rfl⟩
    rcases h2 with ⟨s2, h2⟩ | ⟨w2, h2⟩
    rotate_left
    · exact ⟨w2, by rw [h1, Res.bind_ok, h2]; rfl⟩
    rcases h3 with ⟨s3, h3⟩ | ⟨w3, h3⟩
    rotate_left
    · exact ⟨w3, by rw [h1, Res.bind_ok, h2, Res.bind_ok, h3]; rfl⟩
    rcases h4 with ⟨s4, h4⟩ | ⟨w4, h4⟩
    rotate_left
    · exact ⟨w4, by rw [h1, Res.bind_ok, h2, Res.bind_ok, h3, Res.bind_ok, h4]; rfl⟩
    rcases h5 with ⟨s5, h5⟩ | ⟨w5, h5⟩
    rotate_left
    · exact ⟨w5, by rw [h1, Res.bind_ok, h2, Res.bind_ok, h3, Res.bind_ok, h4, Res.bind_ok, h5]; rfl⟩
    rw [h1, h2, h3, h4, h5] at hu
    simp at hu

/-- The double 1e10. -/
def tenBillion : UInt64 := 0x4202A05F20000000

example : doubleInt tenBillion = none ∧ Double.trunc tenBillion = some 10000000000 := by decide +kernel

/-- C65: there is such a document. -/
theorem C65_undefined_witness : ∃ doc, doc.canon = true ∧ Member doc "hb_port" (.float tenBillion) ∧
    ∃ w, configOf doc = .ub w :=
  ⟨.obj [(lit "control_port", .int 50160), (lit "hb_port", .float tenBillion), (lit "iopub_port", .int 40885),
    (lit "ip", .str (lit "127.0.0.1")), (lit "shell_port", .int 57503), (lit "stdin_port", .int 52597),
    (lit "transport", .str (lit "tcp"))], by decide +kernel, ⟨_, rfl, by decide +kernel⟩,
   "conversion of a double that does not fit", by decide +kernel⟩

/-- The double 8888.75 is a port. -/
example : IntOf (.float 0x40C15C6000000000) 8888 := (intOf_iff _ _).2 (by decide +kernel)

/-- A connection file as `jupyter_client` writes it. -/
def connectionDoc : Json := .obj [(lit "control_port", .int 50160), (lit "hb_port", .int 42540), (lit "iopub_port", .int 40885),
  (lit "ip", .str (lit "127.0.0.1")), (lit "key", .str (lit "a0436f6c")), (lit "shell_port", .int 57503),
  (lit "signature_scheme", .str (lit "hmac-sha256")), (lit "stdin_port", .int 52597), (lit "transport", .str (lit "tcp"))]

def connection : Config := ⟨lit "tcp", lit "127.0.0.1", lit "50160", lit "57503", lit "52597", lit "40885", lit "42540",
  lit "hmac-sha256", lit "a0436f6c"⟩

example : Describes connectionDoc connection :=
  (configOf_iff (by decide +kernel) _).1 (by decide +kernel)

example : loadConfiguration (fun _ => some connectionDoc) (lit "k.json") = .ok connection := by
  refine (C65_load _ (fun f doc h => ?_) _ _).2 ⟨_, rfl, (configOf_iff (by decide +kernel) _).1 (by decide +kernel)⟩
  cases h
  decide +kernel

/-- C65: a file holding the text of the document loads as the document says. -/
theorem C65_text (K : Codec) (LK : Xeus.Spec.LawfulCodec K) (eh : ErrH) (doc : Json) (hd : doc.canon = true)
    (hu : Xeus.Spec.JsonUtf8 doc) (c : Config) (h : Describes doc c) :
    ∃ text, K.dump eh doc = some text ∧ ∀ read file, read file = K.parse text → loadConfiguration read file = .ok c := by
  obtain ⟨text, h1, h2⟩ := LK.roundtrip eh doc hd hu
  refine ⟨text, h1, fun read file hr => ?_⟩
  simp only [loadConfiguration, hr, h2]
  exact (configOf_iff hd c).2 h

example : ∃ text, stdCodec.dump .strict connectionDoc = some text ∧
    ∀ read file, read file = stdCodec.parse text → loadConfiguration read file = .ok connection :=
  C65_text stdCodec stdCodec_lawful .strict connectionDoc (by decide +kernel) ((jsonUtf8_iff _).2 (by decide +kernel)) _
    ((configOf_iff (by decide +kernel) _).1 (by decide +kernel))

/-- C65: numbers are not checked to be ports, and truth values count as numbers. -/
theorem C65_unchecked_witness : ∃ doc c, doc.canon = true ∧ Describes doc c ∧ c.shellPort = lit "1" ∧
    c.hbPort = lit "-5" ∧ c.iopubPort = lit "8888" ∧ Member doc "shell_port" (.bool true) ∧
    Member doc "iopub_port" (.int (8888 + 4294967296)) :=
  ⟨.obj [(lit "control_port", .int 99999999), (lit "hb_port", .int (-5)), (lit "iopub_port", .int (8888 + 4294967296)),
    (lit "ip", .str (lit "127.0.0.1")), (lit "shell_port", .bool true), (lit "stdin_port", .int 52597),
    (lit "transport", .str (lit "tcp"))],
   ⟨lit "tcp", lit "127.0.0.1", lit "99999999", lit "1", lit "52597", lit "8888", lit "-5", [], []⟩,
   by decide +kernel, (configOf_iff (by decide +kernel) _).1 (by decide +kernel), rfl, rfl, rfl,
   ⟨_, rfl, by decide +kernel⟩, ⟨_, rfl, by decide +kernel⟩⟩

/-! ## C75 -/

/-- C75: the authentication of a kernel.  The scheme "none" turns it off; a scheme of the table gives that digest with the
configured key, or, if there is none, with a new random key, which the configuration then shows; every other scheme, in
particular the empty one of a connection file that gives none, makes the constructor throw. -/
theorem C75_authentication (cfg : Config) (guid : Str) :
    (cfg.scheme = lit "none" → ∃ k, initAuth cfg guid = .ok (k, .none)) ∧
    (∀ d, (cfg.scheme, d) ∈ schemeTable → cfg.key ≠ [] → initAuth cfg guid = .ok (cfg.key, .hmac d cfg.key)) ∧
    (∀ d, (cfg.scheme, d) ∈ schemeTable → cfg.key = [] →
      initAuth cfg guid = .ok (newXguid guid, .hmac d (newXguid guid))) ∧
    (cfg.scheme ≠ lit "none" → (∀ d, (cfg.scheme, d) ∉ schemeTable) → Rejected (initAuth cfg guid)) := by
  have key : ∀ d k, (cfg.scheme, d) ∈ schemeTable → makeXauthentication cfg.scheme k = .ok (.hmac d k) :=
    fun d k h => ((C09_scheme_selection cfg.scheme k).2.1 d k).2 ⟨h, rfl⟩
  refine ⟨fun h => ?_, fun d h hk => ?_, fun d h hk => ?_, fun h hd => ?_⟩
  · refine ⟨if cfg.key.length = 0 then newXguid guid else cfg.key, ?_⟩
    simp only [initAuth, (C09_scheme_selection cfg.scheme _).1.2 h, Res.bind_ok]
    rfl
  · have : cfg.key.length ≠ 0 := fun e => hk (List.length_eq_zero_iff.1 e)
    simp only [initAuth, if_neg this, key d _ h, Res.bind_ok]
    rfl
  · simp only [initAuth, hk, List.length_nil, if_true, key d _ h, Res.bind_ok]
    rfl
  · have := (C09_scheme_selection cfg.scheme (if cfg.key.length = 0 then newXguid guid else cfg.key)).2.2.1 ⟨h, hd⟩
    obtain ⟨e, he, hs⟩ := this
    simp only [initAuth, he]
    exact ⟨e, rfl, hs⟩

/-- C75: a connection file without a signature scheme gives no kernel. -/
theorem C75_no_scheme (read : Str → Option Json) (hr : ∀ f doc, read f = some doc → doc.canon = true) (file : Str) (doc : Json)
    (hd : read file = some doc) (hn : ∀ v, ¬ Member doc "signature_scheme" v) (c : Config)
    (hc : loadConfiguration read file = .ok c) (guid : Str) : Rejected (initAuth c guid) := by
  obtain ⟨doc', h1, h2⟩ := (C65_load read hr file c).1 hc
  rw [hd] at h1
  cases h1
  have hs : c.scheme = [] := by
    rcases h2.auth with ⟨_, h, _⟩ | ⟨h, _⟩
    · exact absurd h (hn _)
    · exact h
  refine (C75_authentication c guid).2.2.2 (by rw [hs]; decide) (fun d => ?_)
  rw [hs]
  cases d <;> decide

/-- C75: a connection file with a scheme but an empty key gives a kernel that signs with a key that is not in the file. -/
theorem C75_empty_key (read : Str → Option Json) (hr : ∀ f doc, read f = some doc → doc.canon = true) (file : Str) (doc : Json)
    (hd : read file = some doc) (hk : Member doc "key" (.str [])) (c : Config)
    (hc : loadConfiguration read file = .ok c) (guid : Str) (hg : guid.length = 16) (k : Str) (d : Digest) (k' : Str)
    (ha : initAuth c guid = .ok (k, .hmac d k')) : k' = k ∧ k = newXguid guid ∧ k ≠ [] := by
  obtain ⟨doc', h1, h2⟩ := (C65_load read hr file c).1 hc
  rw [hd] at h1
  cases h1
  have hs : c.key = [] := by
    rcases h2.auth with ⟨_, _, h⟩ | ⟨_, h, _⟩
    · have hcan := hr _ _ hd
      rw [member_iff hcan] at h hk
      obtain ⟨kvs, rfl, h⟩ := h
      obtain ⟨_, e, h'⟩ := hk
      cases e
      rw [h] at h'
      simpa using h'
    · exact h
  simp only [initAuth, hs, List.length_nil, if_true, Res.bind_eq_ok] at ha
  obtain ⟨a, h3, h4⟩ := ha
  cases h4
  exact ⟨(((C09_scheme_selection c.scheme _).2.1 d k').1 h3).2, rfl, (C08_guid guid guid hg).2.1⟩

example : initAuth connection (lit "xy") = .ok (lit "a0436f6c", .hmac .sha256 (lit "a0436f6c")) :=
  (C75_authentication connection (lit "xy")).2.1 .sha256 (by decide) (by decide)

example : ∃ k, initAuth .default (lit "xy") = .ok (k, .hmac .sha256 k) :=
  ⟨_, (C75_authentication .default (lit "xy")).2.2.1 .sha256 (by decide) rfl⟩

/-- The same connection without a scheme. -/
def openDoc : Json := .obj [(lit "control_port", .int 50160), (lit "hb_port", .int 42540), (lit "iopub_port", .int 40885),
  (lit "ip", .str (lit "127.0.0.1")), (lit "key", .str []), (lit "shell_port", .int 57503),
  (lit "stdin_port", .int 52597), (lit "transport", .str (lit "tcp"))]

example : Rejected (initAuth ⟨lit "tcp", lit "127.0.0.1", lit "50160", lit "57503", lit "52597", lit "40885", lit "42540", [], []⟩
    (lit "xy")) := by
  have hr : ∀ (f : Str) doc, (fun _ => some openDoc) f = some doc → doc.canon = true := by
    intro f doc h
    cases h
    decide +kernel
  refine C75_no_scheme (fun _ => some openDoc) hr [] openDoc rfl (fun v ⟨kvs, e, h⟩ => ?_) _ ?_ _
  · cases e
    simp [lit] at h
  · exact (C65_load _ hr _ _).2 ⟨_, rfl, (configOf_iff (by decide +kernel) _).1 (by decide +kernel)⟩

/-! ## C66 -/

/-- C66: for tcp, the port read back is the one bound, unless the end point has more than 31 characters. -/
theorem C66_tcp (s : Socket) (ip port : Str) (hb : BoundTo s (lit "tcp") ip port) (hp : 58 ∉ port) :
    (ip.length + port.length ≤ 24 → getSocketPort s = .ok port) ∧
    (24 < ip.length + port.length → getSocketPort s = .exc .zmq) := by
  have e : s.last = lit "tcp://" ++ ip ++ 58 :: port := by rw [hb.2, endPoint_tcp]
  have hl : s.last.length = ip.length + port.length + 7 := by
    rw [e]
    simp [lit]
    omega
  constructor <;> intro h
  · rw [getSocketPort, if_pos (by omega), e, afterLast_append _ _ _ hp]
  · rw [getSocketPort, if_neg (by omega)]

/-- C66: for every other transport what is read back is not the port but the address too. -/
theorem C66_other (s : Socket) (transport ip port : Str) (ht : transport ≠ lit "tcp") (hb : BoundTo s transport ip port)
    (hi : 58 ∉ ip) (hp : 58 ∉ port) (hl : transport.length + ip.length + port.length ≤ 27) :
    getSocketPort s = .ok (lit "//" ++ ip ++ lit "-" ++ port) ∧ lit "//" ++ ip ++ lit "-" ++ port ≠ port := by
  have e : s.last = transport ++ 58 :: (lit "//" ++ ip ++ 45 :: port) := by rw [hb.2, endPoint_other ht]
  have h2 : (58 : UInt8) ∉ lit "//" ++ ip ++ 45 :: port := by
    have : (58 : UInt8) ∉ lit "//" := by decide
    simp [hi, hp, this]
  have h3 : lit "//" ++ ip ++ lit "-" ++ port = lit "//" ++ ip ++ 45 :: port := by
    have : lit "-" = [45] := by decide
    simp [this]
  have h4 : s.last.length < 32 := by
    rw [e]
    have : (lit "//").length = 2 := by decide
    simp [this]
    omega
  refine ⟨?_, fun h => ?_⟩
  · rw [getSocketPort, if_pos h4, e, afterLast_append _ _ _ h2, h3]
  · have := congrArg List.length h
    have h5 : (lit "//").length = 2 := by decide
    simp [h5] at this
    omega

/-- C66: different addresses or ports have different end points. -/
theorem C66_injective (transport ip port ip' port' : Str)
    (hp : ∀ q ∈ [port, port'], 58 ∉ q ∧ 45 ∉ q)
    (h : getEndPoint transport ip port = getEndPoint transport ip' port') : ip = ip' ∧ port = port' := by
  have key : ∀ sep : UInt8, sep ∉ port → sep ∉ port' → ip ++ sep :: port = ip' ++ sep :: port' → ip = ip' ∧ port = port' := by
    intro sep h1 h2 e
    have := congrArg (afterLast sep) e
    rw [afterLast_append _ _ _ h1, afterLast_append _ _ _ h2] at this
    subst this
    exact ⟨List.append_cancel_right e, rfl⟩
  have h1 := hp port (by simp)
  have h2 := hp port' (by simp)
  simp only [getEndPoint, List.append_assoc] at h
  have h := List.append_cancel_left (List.append_cancel_left h)
  by_cases ht : transport = lit "tcp"
  · simp only [if_pos ht, List.singleton_append] at h
    exact key _ h1.1 h2.1 h
  · simp only [if_neg ht, List.singleton_append] at h
    exact key _ h1.2 h2.2 h

/-- C66: the configuration of a started tcp server shows, for each of its five sockets, the port it is bound to: the one
asked for if any, otherwise the one found, or nothing if none was found and the socket is not bound.  This holds of
both servers. -/
theorem C66_config (w : Worlds) (cfg : Config) (s : Sockets) (ht : cfg.transport = lit "tcp")
    (hw : Setup.Spec.Worlds.All w Draws) (hv : Setup.Spec.Worlds.All w (Verbatim · cfg.transport cfg.ip)) (hp : Ports cfg (58 ∉ ·))
    (ho : openDefault w cfg = .ok s ∨ openSplit w cfg = .ok s)
    (hl : Setup.Spec.Sockets.All s (fun k => k.last.length ≤ 31)) :
    ∃ shown, updateConfig s cfg = .ok shown ∧ AllStarted w s cfg shown := by
  obtain ⟨w1, w2, w3, w4, w5⟩ := hw
  obtain ⟨v1, v2, v3, v4, v5⟩ := hv
  obtain ⟨p1, p2, p3, p4, p5⟩ := hp
  obtain ⟨l1, l2, l3, l4, l5⟩ := hl
  rw [ht] at v1 v2 v3 v4 v5
  have key : initSocket w.control .new cfg.transport cfg.ip cfg.controlPort = .ok s.control ∧
      initSocket w.shell .new cfg.transport cfg.ip cfg.shellPort = .ok s.shell ∧
      initSocket w.stdin .new cfg.transport cfg.ip cfg.stdinPort = .ok s.stdin ∧
      initSocket w.iopub .new cfg.transport cfg.ip cfg.iopubPort = .ok s.iopub ∧
      initSocket w.hb .new cfg.transport cfg.ip cfg.hbPort = .ok s.hb := by
    rcases ho with ho | ho
    · simp only [openDefault, Res.bind_eq_ok] at ho
      obtain ⟨a, h1, b, h2, c, h3, d, h4, e, h5, h6⟩ := ho
      cases h6
      exact ⟨h4, h3, h5, h1, h2⟩
    · simp only [openSplit, Res.bind_eq_ok] at ho
      obtain ⟨a, h1, b, h2, c, h3, d, h4, e, h5, h6⟩ := ho
      cases h6
      exact ⟨h1, h4, h5, h3, h2⟩
  obtain ⟨k1, k2, k3, k4, k5⟩ := key
  rw [ht] at k1 k2 k3 k4 k5
  obtain ⟨q1, e1, r1⟩ := started_of w1 v1 p1 k1 l1
  obtain ⟨q2, e2, r2⟩ := started_of w2 v2 p2 k2 l2
  obtain ⟨q3, e3, r3⟩ := started_of w3 v3 p3 k3 l3
  obtain ⟨q4, e4, r4⟩ := started_of w4 v4 p4 k4 l4
  obtain ⟨q5, e5, r5⟩ := started_of w5 v5 p5 k5 l5
  refine ⟨{ cfg with controlPort := q1, shellPort := q2, stdinPort := q3, iopubPort := q4, hbPort := q5 }, ?_, ?_⟩
  · simp only [updateConfig, e1, e2, e3, e4, e5, Res.bind_ok]
    rfl
  · rw [← ht] at r1 r2 r3 r4 r5
    exact ⟨r1, r2, r3, r4, r5, rfl, rfl, rfl, rfl⟩

/-- Surroundings in which only the ports 60000 and 50160 are free; the draws are the least number
and one greater by 10848 in turn. -/
def someWorld : World where
  draw a b i := if i % 2 = 0 then a else min b (a + 10848)
  net _ e := if e = lit "tcp://127.0.0.1:60000" ∨ e = lit "tcp://127.0.0.1:50160" then some e else none

example : Verbatim someWorld (lit "tcp") (lit "127.0.0.1") := by
  intro i port last h
  simp only [someWorld] at h
  split at h
  · cases h; rfl
  · cases h

theorem someWorld_draws : Draws someWorld := by
  intro a b h i
  simp only [someWorld]
  split <;> omega

/-- The default configuration with a given control port. -/
def someConfig : Config := { Config.default with controlPort := lit "50160" }

example : ∃ s shown, openDefault ⟨someWorld, someWorld, someWorld, someWorld, someWorld⟩ someConfig = .ok s ∧
    updateConfig s someConfig = .ok shown ∧ shown.controlPort = lit "50160" ∧ shown.shellPort = lit "60000" := by
  have hv : Verbatim someWorld (lit "tcp") (lit "127.0.0.1") := by
    intro i port last h
    simp only [someWorld] at h
    split at h
    · cases h; rfl
    · cases h
  have ho : openDefault ⟨someWorld, someWorld, someWorld, someWorld, someWorld⟩ someConfig =
      .ok ⟨⟨[lit "tcp://127.0.0.1:50160"], lit "tcp://127.0.0.1:50160"⟩, ⟨[lit "tcp://127.0.0.1:60000"], lit "tcp://127.0.0.1:60000"⟩,
        ⟨[lit "tcp://127.0.0.1:60000"], lit "tcp://127.0.0.1:60000"⟩, ⟨[lit "tcp://127.0.0.1:60000"], lit "tcp://127.0.0.1:60000"⟩,
        ⟨[lit "tcp://127.0.0.1:60000"], lit "tcp://127.0.0.1:60000"⟩⟩ := by
    have h1 : initSocket someWorld .new someConfig.transport someConfig.ip (lit "50160") =
        .ok ⟨[lit "tcp://127.0.0.1:50160"], lit "tcp://127.0.0.1:50160"⟩ := by rfl
    have h2 : initSocket someWorld .new someConfig.transport someConfig.ip [] =
        .ok ⟨[lit "tcp://127.0.0.1:60000"], lit "tcp://127.0.0.1:60000"⟩ := by rfl
    have e1 : someConfig.controlPort = lit "50160" := rfl
    have e2 : someConfig.shellPort = [] ∧ someConfig.stdinPort = [] ∧ someConfig.iopubPort = [] ∧ someConfig.hbPort = [] :=
      ⟨rfl, rfl, rfl, rfl⟩
    simp only [openDefault, e1, e2, h1, h2, Res.bind_ok]
    rfl
  obtain ⟨shown, h1, h2⟩ := C66_config ⟨someWorld, someWorld, someWorld, someWorld, someWorld⟩ someConfig _ rfl
    ⟨someWorld_draws, someWorld_draws, someWorld_draws, someWorld_draws, someWorld_draws⟩ ⟨hv, hv, hv, hv, hv⟩ (by unfold Ports; decide) (.inl ho) (by unfold Setup.Spec.Sockets.All; decide)
  refine ⟨_, shown, ho, h1, ?_, ?_⟩
  · have := h1
    cases this
    decide +kernel
  · have := h1
    cases this
    decide +kernel

/-- C66: an end point of more than 31 characters makes the start of a kernel fail. -/
theorem C66_long (s : Sockets) (cfg : Config)
    (hl : ¬ Setup.Spec.Sockets.All s (fun k => k.last.length ≤ 31)) : updateConfig s cfg = .exc .zmq := by
  have h : ∀ k : Socket, (k.last.length ≤ 31 ∧ ∃ p, getSocketPort k = .ok p) ∨ (¬ k.last.length ≤ 31 ∧ getSocketPort k = .exc .zmq) := by
    intro k
    unfold getSocketPort
    by_cases hk : k.last.length ≤ 31
    · exact .inl ⟨hk, by rw [if_pos (by omega)]; exact ⟨_, rfl⟩⟩
    · exact .inr ⟨hk, by rw [if_neg (by omega)]⟩
  unfold updateConfig
  rcases (h s.control).symm with ⟨_, e1⟩ | ⟨a1, p1, e1⟩
  · rw [e1]; rfl
  rw [e1, Res.bind_ok]
  rcases (h s.shell).symm with ⟨_, e2⟩ | ⟨a2, p2, e2⟩
  · rw [e2]; rfl
  rw [e2, Res.bind_ok]
  rcases (h s.stdin).symm with ⟨_, e3⟩ | ⟨a3, p3, e3⟩
  · rw [e3]; rfl
  rw [e3, Res.bind_ok]
  rcases (h s.iopub).symm with ⟨_, e4⟩ | ⟨a4, p4, e4⟩
  · rw [e4]; rfl
  rw [e4, Res.bind_ok]
  rcases (h s.hb).symm with ⟨_, e5⟩ | ⟨a5, p5, e5⟩
  · rw [e5]; rfl
  rw [e5, Res.bind_ok]
  exact absurd ⟨a1, a2, a3, a4, a5⟩ hl

example : updateConfig ⟨.new, .new, .new, ⟨[lit "tcp://[2001:db8::8a2e:370:7334]:50160"], lit "tcp://[2001:db8::8a2e:370:7334]:50160"⟩,
    .new⟩ connection = .exc .zmq := C66_long _ _ (by unfold Setup.Spec.Sockets.All; decide)

/-! ## C67 -/

/-- C67: the search returns the first of the drawn ports that can be bound, and the socket is then bound to it; if none
of the allowed draws can be bound it returns nothing and the socket is as before. -/
theorem C67_search (w : World) (transport ip : Str) (s : Socket) (maxTries : Nat) (start stop : Int) (hr : start ≤ stop)
    (hw : Draws w) :
    (∀ i, i < maxTries → ∀ port last, Decimal (w.draw start stop i) port → w.net i (getEndPoint transport ip port) = some last →
      (∀ j, j < i → ∀ q, Decimal (w.draw start stop j) q → w.net j (getEndPoint transport ip q) = none) →
      start ≤ w.draw start stop i ∧ w.draw start stop i ≤ stop ∧
      findFreePortImpl w transport ip s maxTries start stop =
        .ok (port, { s with bound := s.bound ++ [getEndPoint transport ip port], last := last })) ∧
    ((∀ i, i < maxTries → ∀ port, Decimal (w.draw start stop i) port → w.net i (getEndPoint transport ip port) = none) →
      findFreePortImpl w transport ip s maxTries start stop = .ok ([], s)) := by
  simp only [decimal_iff, forall_eq]
  rw [findFreePortImpl, if_pos hr]
  have h := tryPorts_spec w (w.draw start stop) transport ip s maxTries 0
  constructor
  · rintro i hi port last rfl hn hb
    refine ⟨(hw _ _ hr i).1, (hw _ _ hr i).2, ?_⟩
    rcases h with ⟨j, last', _, h2, h3, h4, h5⟩ | ⟨h1, _⟩
    · have : i = j := by
        rcases Nat.lt_trichotomy i j with hlt | heq | hgt
        · rw [h4 i (by omega) hlt] at hn; cases hn
        · exact heq
        · rw [hb j hgt] at h3; cases h3
      subst this
      rw [hn] at h3
      cases h3
      rw [h5]
    · rw [h1 i (by omega) (by omega)] at hn; cases hn
  · intro hb
    rcases h with ⟨j, last', _, h2, h3, h4, h5⟩ | ⟨_, h2⟩
    · rw [hb j (by omega)] at h3; cases h3
    · rw [h2]

/-- C67: so a port that is returned is one of the first draws, in the range, and the socket is bound to it and to nothing
it was not bound to before. -/
theorem C67_returned (w : World) (transport ip : Str) (s s' : Socket) (maxTries : Nat) (start stop : Int)
    (hw : Draws w) (port : Str) (h : findFreePortImpl w transport ip s maxTries start stop = .ok (port, s')) :
    (port = [] ∧ s' = s) ∨
    ∃ i, i < maxTries ∧ Decimal (w.draw start stop i) port ∧ start ≤ w.draw start stop i ∧ w.draw start stop i ≤ stop ∧
      (w.net i (getEndPoint transport ip port)).isSome = true ∧
      s'.bound = s.bound ++ [getEndPoint transport ip port] := by
  unfold findFreePortImpl at h
  split at h
  · rename_i hr
    rcases tryPorts_spec w (w.draw start stop) transport ip s maxTries 0 with ⟨j, last', _, h2, h3, h4, h5⟩ | ⟨_, h2⟩
    · rw [h5] at h
      cases h
      exact .inr ⟨j, by omega, decimal_self _, (hw _ _ hr j).1, (hw _ _ hr j).2, by rw [h3]; rfl, rfl⟩
    · rw [h2] at h
      cases h
      exact .inl ⟨rfl, rfl⟩
  · cases h

/-- C67: `find_free_port` returns the first of the drawn ports that can be bound on the local machine; if there is none,
it does not return nothing, it throws. -/
theorem C67_find (w : World) (maxTries : Nat) (start stop : Int) (hr : start ≤ stop) (hw : Draws w) :
    (∀ port, findFreePort w maxTries start stop = .ok port ↔ ∃ i, i < maxTries ∧ Decimal (w.draw start stop i) port ∧
      (w.net i (getEndPoint (lit "tcp") (lit "127.0.0.1") port)).isSome = true ∧
      ∀ j, j < i → ∀ q, Decimal (w.draw start stop j) q → w.net j (getEndPoint (lit "tcp") (lit "127.0.0.1") q) = none) ∧
    ((∀ i, i < maxTries → ∀ port, Decimal (w.draw start stop i) port →
      w.net i (getEndPoint (lit "tcp") (lit "127.0.0.1") port) = none) → findFreePort w maxTries start stop = .exc .zmq) := by
  have hs := C67_search w (lit "tcp") (lit "127.0.0.1") .new maxTries start stop hr hw
  have key : ∀ i, i < maxTries → ∀ port last, Decimal (w.draw start stop i) port →
      w.net i (getEndPoint (lit "tcp") (lit "127.0.0.1") port) = some last →
      (∀ j, j < i → ∀ q, Decimal (w.draw start stop j) q → w.net j (getEndPoint (lit "tcp") (lit "127.0.0.1") q) = none) →
      findFreePort w maxTries start stop = .ok port := by
    intro i hi port last hd hn hb
    have := (hs.1 i hi port last hd hn hb).2.2
    rw [findFreePort, this, Res.bind_ok, if_pos]
    · rfl
    · exact List.mem_append_right _ (List.mem_singleton.2 rfl)
  have none : (∀ i, i < maxTries → ∀ port, Decimal (w.draw start stop i) port →
      w.net i (getEndPoint (lit "tcp") (lit "127.0.0.1") port) = none) → findFreePort w maxTries start stop = .exc .zmq := by
    intro hb
    rw [findFreePort, hs.2 hb, Res.bind_ok, if_neg]
    exact List.not_mem_nil
  refine ⟨fun port => ⟨fun h => ?_, fun ⟨i, hi, hd, hn, hb⟩ => ?_⟩, none⟩
  · rcases tryPorts_spec w (w.draw start stop) (lit "tcp") (lit "127.0.0.1") .new maxTries 0 with ⟨j, last', _, h2, h3, h4, h5⟩ | ⟨h1, _⟩
    · have hb : ∀ l, l < j → ∀ q, Decimal (w.draw start stop l) q → w.net l (getEndPoint (lit "tcp") (lit "127.0.0.1") q) = Option.none := by
        intro l hl q hq
        rw [(decimal_iff _ _).1 hq]
        exact h4 l (by omega) hl
      have := key j (by omega) _ last' (decimal_self _) h3 hb
      rw [h] at this
      cases this
      exact ⟨j, by omega, decimal_self _, by rw [h3]; rfl, hb⟩
    · rw [none (fun i hi q hq => by rw [(decimal_iff _ _).1 hq]; exact h1 i (by omega) (by omega))] at h
      cases h
  · obtain ⟨last, hl⟩ := Option.isSome_iff_exists.1 hn
    exact key i hi port last hd hl hb

example : findFreePort someWorld 2 49152 65536 = .ok (lit "60000") :=
  ((C67_find someWorld 2 49152 65536 (by decide) someWorld_draws).1 _).2
    ⟨1, by decide, (decimal_iff _ _).2 (by decide +kernel), by decide +kernel, fun j hj q hq => by
      have : j = 0 := by omega
      subst this
      rw [(decimal_iff _ _).1 hq]
      decide +kernel⟩

/-- C67: a server socket without a given port for which no port is found stays unbound, without any error, and its port
is shown as empty. -/
theorem C67_silent (w : World) (transport ip : Str)
    (h : ∀ i, i < 100 → ∀ port, Decimal (w.draw 49152 65536 i) port → w.net i (getEndPoint transport ip port) = none) :
    ∃ s, initSocket w .new transport ip [] = .ok s ∧ s.bound = [] ∧ getSocketPort s = .ok [] := by
  refine ⟨.new, ?_, rfl, rfl⟩
  rcases tryPorts_spec w (w.draw 49152 65536) transport ip .new 100 0 with ⟨j, last', _, h2, h3, h4, h5⟩ | ⟨_, h2⟩
  · rw [h j (by omega) _ (decimal_self _)] at h3; cases h3
  · rw [initSocket, if_neg (by simp), findFreePortImpl, if_pos (by decide), h2]
    rfl

example : ∃ w : World, ∀ i, i < 100 → ∀ port, Decimal (w.draw 49152 65536 i) port →
    w.net i (getEndPoint (lit "tcp") (lit "256.0.0.1") port) = none := ⟨⟨fun a _ _ => a, fun _ _ => none⟩, fun _ _ _ _ => rfl⟩

/-! ## C70 -/

/-- C70: after any registrations, the interpreter in use is the first one registered that is not null, and the placeholder
if there is none; a registration is accepted exactly if none before it was of a non-null interpreter. -/
theorem C70_registry (l : List (Option Nat)) :
    FirstOf l (getInterpreter (registerAll none l).2) ∧ (registerAll none l).1.length = l.length ∧
    ∀ i, (h : i < l.length) → ((registerAll none l).1[i]? = some true ↔ ∀ j, j < i → l[j]? = some none) := by
  have hsome : ∀ (a : Nat) (l : List (Option Nat)), (registerAll (some a) l).2 = some a ∧
      (registerAll (some a) l).1 = List.replicate l.length false := by
    intro a l
    induction l with
    | nil => exact ⟨rfl, rfl⟩
    | cons x l ih => simp [registerAll, registerInterpreter, ih, List.replicate_succ]
  induction l with
  | nil => exact ⟨fun x hx => (by cases hx), rfl, fun i h => (by simp at h)⟩
  | cons x l ih =>
    cases x with
    | some a =>
      simp only [registerAll, registerInterpreter, hsome]
      refine ⟨⟨[], l, rfl, fun _ h => (by cases h)⟩, by simp, fun i h => ?_⟩
      cases i with
      | zero => simp
      | succ i =>
        constructor
        · intro hi
          simp [List.getElem?_replicate] at hi
        · intro hj
          have := hj 0 (by omega)
          simp at this
    | none =>
      simp only [registerAll, registerInterpreter]
      obtain ⟨h1, h2, h3⟩ := ih
      refine ⟨?_, by simp [h2], fun i h => ?_⟩
      · revert h1
        generalize getInterpreter (registerAll none l).2 = r
        cases r with
        | none =>
          intro h1 x hx
          rcases List.mem_cons.1 hx with rfl | hx
          · rfl
          · exact h1 x hx
        | some a =>
          rintro ⟨p, q, rfl, hp⟩
          refine ⟨none :: p, q, rfl, fun x hx => ?_⟩
          rcases List.mem_cons.1 hx with rfl | hx
          · rfl
          · exact hp x hx
      · cases i with
        | zero => simp
        | succ i =>
          simp only [List.getElem?_cons_succ]
          rw [h3 i (by simpa using h)]
          constructor
          · intro hj j hlt
            cases j with
            | zero => rfl
            | succ j => exact hj j (by omega)
          · intro hj j hlt
            exact hj (j + 1) (by omega)

example : getInterpreter (registerAll none [none, some 3, none, some 7]).2 = some 3 := by decide

end Xeus
