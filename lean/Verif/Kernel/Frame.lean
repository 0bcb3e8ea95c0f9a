import Verif.Kernel.Spec
import Verif.Wire.Lemmas
import Verif.Utf8.Lemmas

/-!
# The kernel core: primitive runs and frame lemmas (no property statements here)
-/

namespace Xeus

open Spec

variable {σ : Type}

/-! ## Headers -/

theorem headerJson_eq (id user session date type : Str) :
    headerJson id user session date type = headerOf id user session date type := by
  simp only [headerJson, headerOf, Json.put, protocolVersion]
  simp only [Json.insertKV]
  simp (decide := true) only [if_true, if_false, Json.insertKV]

theorem headerOf_type (id user session date type : Str) :
    (headerOf id user session date type).find? (lit "msg_type") = some (.str type) := by
  simp (decide := true) [headerOf, Json.find?, Json.lookup]

theorem WfHeader.type {env : Env} {type : Str} {h : Json} (hh : WfHeader env type h) :
    h.find? (lit "msg_type") = some (.str type) := by
  obtain ⟨_, _, rfl⟩ := hh
  exact headerOf_type ..

/-! ## Runs of the primitives -/

@[simp] theorem run_emit (e : Ev) (w : World σ) :
    (emit e).run w = (.ok (), { w with out := w.out ++ [e] }) := by
  simp only [emit, K.run_modify]

@[simp] theorem run_logK (env : Env) (e : LogEv) (w : World σ) :
    (logK env e).run w = (env.log e, w) := by
  simp only [logK, K.run_ofRes]

/-- The header produced by `makeHeader` in a state. -/
def hdrAt (env : Env) (w : World σ) (type : Str) : Json :=
  headerOf (newXguid (env.guid w.guids)) env.user env.session (env.now w.clocks) type

theorem hdrAt_wf (env : Env) (w : World σ) (type : Str) : WfHeader env type (hdrAt env w type) :=
  ⟨_, _, rfl⟩

/-- A GUID and a clock reading were consumed. -/
def tick (w : World σ) : World σ := { w with guids := w.guids + 1, clocks := w.clocks + 1 }

@[simp] theorem run_makeHeader (env : Env) (type : Str) (w : World σ) :
    (makeHeader env type).run w = (.ok (hdrAt env w type), tick w) := by
  simp only [makeHeader, freshGuid, isoNow, K.run_bind, K.run_lift, K.andThen_ok, K.run_pure, headerJson_eq,
    hdrAt, tick]

@[simp] theorem run_parentHeader (c : Chan) (w : World σ) :
    (parentHeader c).run w = (.ok (w.parent c).header, w) := by
  simp only [parentHeader, K.run_read]

@[simp] theorem run_parentIds (c : Chan) (w : World σ) :
    (parentIds c).run w = (.ok (w.parent c).ids, w) := by
  simp only [parentIds, K.run_read]

@[simp] theorem run_setParent (ids : List Str) (h : Json) (c : Chan) (w : World σ) :
    (setParent ids h c).run w =
      (.ok (), { w with parent := fun c' => if c' = c then ⟨ids, h⟩ else w.parent c' }) := by
  simp only [setParent, K.run_bind, K.run_modify, K.andThen_ok]
  congr 2
  funext c'
  by_cases hc : c' = c <;> simp [hc]

@[simp] theorem run_getMetadata (env : Env) (w : World σ) :
    (getMetadata env).run w =
      (.ok (.obj [(lit "started", .str (env.now w.clocks))]), { w with clocks := w.clocks + 1 }) := by
  simp only [getMetadata, isoNow, K.run_bind, K.run_lift, K.andThen_ok, K.run_pure, Json.put]

/-- The message published by `publishMessage` in a state. -/
def pubAt (env : Env) (w : World σ) (type : Str) (metadata content : Json) (buffers : List Frame) (c : Chan) :
    PubMessage :=
  ⟨topic env type, ⟨hdrAt env w type, (w.parent c).header, metadata, content, buffers⟩⟩

/-- Run of `publishMessage`. -/
theorem run_publishMessage (env : Env) (type : Str) (metadata content : Json) (buffers : List Frame)
    (c : Chan) (w : World σ) :
    (publishMessage env type metadata content buffers c).run w =
      K.andThen (env.log (.iopub (pubAt env w type metadata content buffers c)), tick w) fun _ w' =>
      K.andThen (serializePub env.C env.J env.auth env.eh (pubAt env w type metadata content buffers c), w')
        fun wire w' =>
          (.ok (), { w' with out := w'.out ++ [.pub c (pubAt env w type metadata content buffers c) wire] }) := by
  simp only [publishMessage, K.run_bind, run_makeHeader, K.andThen_ok, run_parentHeader, run_logK, K.run_ofRes,
    run_emit, pubAt, tick]

/-- The message sent by `sendReplyTo` in a state. -/
def replyAt (env : Env) (w : World σ) (ids : List Str) (type : Str) (parent metadata content : Json) :
    XMessage :=
  ⟨ids, ⟨hdrAt env w type, parent, metadata, content, []⟩⟩

theorem run_sendReplyTo (env : Env) (ids : List Str) (type : Str) (parent metadata content : Json) (c : Chan)
    (w : World σ) :
    (sendReplyTo env ids type parent metadata content c).run w =
      K.andThen (env.log (.sent (some c) (replyAt env w ids type parent metadata content)), tick w) fun _ w' =>
      K.andThen (serialize env.C env.J env.auth env.eh (replyAt env w ids type parent metadata content), w')
        fun wire w' =>
          (.ok (), { w' with out := w'.out ++ [.reply c (replyAt env w ids type parent metadata content) wire] }) := by
  simp only [sendReplyTo, K.run_bind, run_makeHeader, K.andThen_ok, run_logK, K.run_ofRes,
    run_emit, replyAt, tick]

theorem run_sendReply (env : Env) (type : Str) (metadata content : Json) (c : Chan) (w : World σ) :
    (sendReply env type metadata content c).run w =
      (sendReplyTo env (w.parent c).ids type (w.parent c).header metadata content c).run w := by
  simp only [sendReply, K.run_bind, run_parentIds, K.andThen_ok, run_parentHeader]

/-! ## When messages can be printed -/

theorem dump_some {K : Codec} (hK : LawfulCodec K) {eh : ErrH} {j : Json} (hc : j.canon = true)
    (hu : eh = .strict → JsonUtf8 j) : ∃ s, K.dump eh j = some s := by
  by_cases he : eh = .strict
  · obtain ⟨s, hs, _⟩ := hK.roundtrip eh j hc (hu he)
    exact ⟨s, hs⟩
  · exact Option.isSome_iff_exists.mp (hK.dump_lenient eh j he)

theorem Parsed.printable {j : Json} (h : Parsed j) (eh : ErrH) : Printable eh j := ⟨h.1, fun _ => h.2⟩

theorem serializeBase_ok {C : Crypto} {K : Codec} (hK : LawfulCodec K) (a : Auth) {eh : ErrH} {b : Body}
    (h1 : Printable eh b.header) (h2 : Printable eh b.parent) (h3 : Printable eh b.metadata)
    (h4 : Printable eh b.content) : ∃ w, serializeBase C K a eh b = .ok w := by
  obtain ⟨s1, e1⟩ := dump_some hK h1.1 h1.2
  obtain ⟨s2, e2⟩ := dump_some hK h2.1 h2.2
  obtain ⟨s3, e3⟩ := dump_some hK h3.1 h3.2
  obtain ⟨s4, e4⟩ := dump_some hK h4.1 h4.2
  simp [serializeBase, Codec.writeZmq, e1, e2, e3, e4]

theorem serialize_ok {C : Crypto} {K : Codec} (hK : LawfulCodec K) (a : Auth) {eh : ErrH} {m : XMessage}
    (h1 : Printable eh m.body.header) (h2 : Printable eh m.body.parent) (h3 : Printable eh m.body.metadata)
    (h4 : Printable eh m.body.content) : ∃ w, serialize C K a eh m = .ok w := by
  obtain ⟨w, hw⟩ := serializeBase_ok (C := C) hK a h1 h2 h3 h4
  simp [serialize, hw]

theorem serializePub_ok {C : Crypto} {K : Codec} (hK : LawfulCodec K) (a : Auth) {eh : ErrH} {m : PubMessage}
    (h1 : Printable eh m.body.header) (h2 : Printable eh m.body.parent) (h3 : Printable eh m.body.metadata)
    (h4 : Printable eh m.body.content) : ∃ w, serializePub C K a eh m = .ok w := by
  obtain ⟨w, hw⟩ := serializeBase_ok (C := C) hK a h1 h2 h3 h4
  simp [serializePub, hw]

/-- Printing never gets stuck: a message or a `std::exception`. -/
theorem serializeBase_cases (C : Crypto) (K : Codec) (a : Auth) (eh : ErrH) (b : Body) :
    (∃ w, serializeBase C K a eh b = .ok w) ∨ serializeBase C K a eh b = .exc .typeError := by
  unfold serializeBase Codec.writeZmq
  cases K.dump eh b.header <;> simp
  cases K.dump eh b.parent <;> simp
  cases K.dump eh b.metadata <;> simp
  cases K.dump eh b.content <;> simp

theorem serialize_cases (C : Crypto) (K : Codec) (a : Auth) (eh : ErrH) (m : XMessage) :
    (∃ w, serialize C K a eh m = .ok w) ∨ serialize C K a eh m = .exc .typeError := by
  rcases serializeBase_cases C K a eh m.body with ⟨w, hw⟩ | hw <;> simp [serialize, hw]

theorem serializePub_cases (C : Crypto) (K : Codec) (a : Auth) (eh : ErrH) (m : PubMessage) :
    (∃ w, serializePub C K a eh m = .ok w) ∨ serializePub C K a eh m = .exc .typeError := by
  rcases serializeBase_cases C K a eh m.body with ⟨w, hw⟩ | hw <;> simp [serializePub, hw]

/-- The outcomes of `publishMessage` when logging works. -/
theorem publishMessage_cases {env : Env} (hl : ∀ e, env.log e = .ok ()) (type : Str) (metadata content : Json)
    (buffers : List Frame) (c : Chan) (w : World σ) :
    (∃ wire, serializePub env.C env.J env.auth env.eh (pubAt env w type metadata content buffers c) = .ok wire ∧
      (publishMessage env type metadata content buffers c).run w =
        (.ok (), { tick w with out := w.out ++ [.pub c (pubAt env w type metadata content buffers c) wire] })) ∨
    (publishMessage env type metadata content buffers c).run w = (.exc .typeError, tick w) := by
  rw [run_publishMessage, hl, K.andThen_ok]
  rcases serializePub_cases env.C env.J env.auth env.eh (pubAt env w type metadata content buffers c) with
    ⟨wire, hw⟩ | hw
  · refine .inl ⟨wire, hw, ?_⟩
    rw [hw, K.andThen_ok]; rfl
  · refine .inr ?_
    rw [hw, K.andThen_exc]

theorem sendReplyTo_cases {env : Env} (hl : ∀ e, env.log e = .ok ()) (ids : List Str) (type : Str)
    (parent metadata content : Json) (c : Chan) (w : World σ) :
    (∃ wire, serialize env.C env.J env.auth env.eh (replyAt env w ids type parent metadata content) = .ok wire ∧
      (sendReplyTo env ids type parent metadata content c).run w =
        (.ok (), { tick w with
          out := w.out ++ [.reply c (replyAt env w ids type parent metadata content) wire] })) ∨
    (sendReplyTo env ids type parent metadata content c).run w = (.exc .typeError, tick w) := by
  rw [run_sendReplyTo, hl, K.andThen_ok]
  rcases serialize_cases env.C env.J env.auth env.eh (replyAt env w ids type parent metadata content) with
    ⟨wire, hw⟩ | hw
  · refine .inl ⟨wire, hw, ?_⟩
    rw [hw, K.andThen_ok]; rfl
  · refine .inr ?_
    rw [hw, K.andThen_exc]

/-! ## Headers are printable -/

theorem utf8_lit {s : String} (h : (lit s).all (· ≤ 0x7F) = true) : Utf8 (lit s) :=
  utf8_ascii (by simpa using h)

theorem hexDigit_ascii : ∀ n : Fin 16, hexDigit n.val ≤ 0x7F := by decide

theorem hexString_utf8 (b : Str) : Utf8 (hexString b) := by
  refine utf8_ascii fun x hx => ?_
  simp only [hexString, List.mem_flatMap, hexByte] at hx
  obtain ⟨y, _, hx⟩ := hx
  have hy := y.toNat_lt
  rcases List.mem_cons.mp hx with rfl | hx
  · exact hexDigit_ascii ⟨y.toNat / 16, by omega⟩
  · rcases List.mem_cons.mp hx with rfl | hx
    · exact hexDigit_ascii ⟨y.toNat % 16, by omega⟩
    · simp at hx

theorem headerOf_canon (i u s d t : Str) : (headerOf i u s d t).canon = true := by
  simp (decide := true) [headerOf, Json.canon, Json.sortedKeys, Json.canonO]

theorem headerOf_utf8 {i u s d t : Str} (hi : Utf8 i) (hu : Utf8 u) (hs : Utf8 s) (hd : Utf8 d)
    (ht : Utf8 t) : JsonUtf8 (headerOf i u s d t) := by
  refine .obj ?_ ?_
  · intro kv hkv
    simp only [List.mem_cons, List.not_mem_nil, or_false] at hkv
    rcases hkv with rfl | rfl | rfl | rfl | rfl | rfl <;> exact utf8_lit (by decide)
  · intro kv hkv
    simp only [List.mem_cons, List.not_mem_nil, or_false] at hkv
    rcases hkv with rfl | rfl | rfl | rfl | rfl | rfl <;> refine .str ?_ <;> first | assumption | exact utf8_lit (by decide)

theorem hdrAt_printable {env : Env} (hs : Sane env) (w : World σ) {type : Str}
    (ht : env.eh = .strict → Utf8 type) : Printable env.eh (hdrAt env w type) :=
  ⟨headerOf_canon .., fun he => headerOf_utf8 (hexString_utf8 _) (hs.user he) (hs.session he) (hs.now he _) (ht he)⟩

theorem emptyObj_printable (eh : ErrH) : Printable eh (.obj []) :=
  ⟨by decide, fun _ => .obj (by simp) (by simp)⟩

theorem obj1_printable {eh : ErrH} {k : Str} {v : Json} (hk : Utf8 k) (hv : Printable eh v) :
    Printable eh (.obj [(k, v)]) := by
  refine ⟨by simp [Json.canon, Json.sortedKeys, Json.canonO, hv.1], fun he => .obj ?_ ?_⟩ <;>
    simp [hk, hv.2 he]

theorem str_printable {eh : ErrH} {s : Str} (h : eh = .strict → Utf8 s) : Printable eh (.str s) :=
  ⟨by simp [Json.canon], fun he => .str (h he)⟩

theorem publishMessage_ok {env : Env} (hs : Sane env) {type : Str} {metadata content : Json}
    (buffers : List Frame) {c : Chan} {w : World σ} (hp : Parsed (w.parent c).header)
    (ht : Utf8 type) (hm : Printable env.eh metadata) (hc : Printable env.eh content) :
    ∃ wire, serializePub env.C env.J env.auth env.eh (pubAt env w type metadata content buffers c) = .ok wire ∧
      (publishMessage env type metadata content buffers c).run w =
        (.ok (), { tick w with out := w.out ++ [.pub c (pubAt env w type metadata content buffers c) wire] }) := by
  obtain ⟨wire, hw⟩ := serializePub_ok (C := env.C) hs.codec env.auth (eh := env.eh)
    (m := pubAt env w type metadata content buffers c) (hdrAt_printable hs w fun _ => ht)
    (Parsed.printable hp env.eh) hm hc
  refine ⟨wire, hw, ?_⟩
  rw [run_publishMessage, hs.log, K.andThen_ok, hw, K.andThen_ok]; rfl

theorem sendReplyTo_ok {env : Env} (hs : Sane env) {ids : List Str} {type : Str} {parent metadata content : Json}
    (c : Chan) {w : World σ} (hp : Parsed parent)
    (ht : Utf8 type) (hm : Printable env.eh metadata) (hc : Printable env.eh content) :
    ∃ wire, serialize env.C env.J env.auth env.eh (replyAt env w ids type parent metadata content) = .ok wire ∧
      (sendReplyTo env ids type parent metadata content c).run w =
        (.ok (), { tick w with
          out := w.out ++ [.reply c (replyAt env w ids type parent metadata content) wire] }) := by
  obtain ⟨wire, hw⟩ := serialize_ok (C := env.C) hs.codec env.auth (eh := env.eh)
    (m := replyAt env w ids type parent metadata content) (hdrAt_printable hs w fun _ => ht)
    (Parsed.printable hp env.eh) hm hc
  refine ⟨wire, hw, ?_⟩
  rw [run_sendReplyTo, hs.log, K.andThen_ok, hw, K.andThen_ok]; rfl

end Xeus
