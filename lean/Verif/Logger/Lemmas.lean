import Verif.Logger.Spec
import Verif.Setup.Lemmas
import Verif.Kernel.Handlers
import Verif.JsonCodec
import Verif.Utf8.Props

/-!
# Logging: lemmas
-/

namespace Xeus.Log

open Xeus Xeus.Spec Xeus.Log Xeus.Log.Spec

theorem mem_iff_lookup {l : List (Str × Json)} (h : Json.sortedKeys l = true) (k : Str) (v : Json) :
    (k, v) ∈ l ↔ Json.lookup k l = some v :=
  ⟨fun hm => Setup.lookup_eq_of_mem h hm, Json.lookup_mem⟩

theorem objectOf_first (k : String) (v : Json) : ObjectOf (Json.null.put (lit k) v) [(k, v)] :=
  ⟨[(lit k, v)], rfl, rfl, fun a b => by simp⟩

theorem objectOf_put {j : Json} {ms : List (String × Json)} (h : ObjectOf j ms) (k : String) (v : Json)
    (keys : List String) (hkeys : ms.map Prod.fst = keys) (hk : keys.all (fun s => lit k != lit s) = true) :
    ObjectOf (j.put (lit k) v) (ms ++ [(k, v)]) := by
  subst hkeys
  have hk : ∀ m ∈ ms, lit k ≠ lit m.1 := by simpa using hk
  obtain ⟨kvs, rfl, hs, hm⟩ := h
  have hs' := Json.sortedKeys_insertKV (lit k) v kvs hs
  refine ⟨Json.insertKV (lit k) v kvs, rfl, hs', fun a b => ?_⟩
  rw [mem_iff_lookup hs', Json.lookup_insertKV]
  simp only [List.mem_append, List.mem_singleton]
  by_cases ha : lit k = a
  · subst ha
    simp only [if_true, Option.some.injEq]
    constructor
    · rintro rfl
      exact ⟨(k, v), .inr rfl, rfl, rfl⟩
    · rintro ⟨m, h1 | rfl, h2, h3⟩
      · exact absurd h2 (hk m h1)
      · exact h3.symm
  · rw [if_neg ha, ← mem_iff_lookup hs, hm]
    constructor
    · rintro ⟨m, h1, h2⟩
      exact ⟨m, .inl h1, h2⟩
    · rintro ⟨m, h1 | rfl, h2, h3⟩
      · exact ⟨m, h1, h2, h3⟩
      · exact absurd h2.symm ha

theorem objectOf_utf8 {j : Json} {ms : List (String × Json)} (h : ObjectOf j ms)
    (keys : List String) (hkeys : ms.map Prod.fst = keys) (hk : keys.all (fun s => (lit s).all (· ≤ 0x7F)) = true) :
    JsonUtf8 j ↔ ∀ m ∈ ms, JsonUtf8 m.2 := by
  subst hkeys
  have hk : ∀ m ∈ ms, Utf8 (lit m.1) := fun m hm =>
    utf8_lit (List.all_eq_true.1 hk m.1 (List.mem_map.2 ⟨m, hm, rfl⟩))
  obtain ⟨kvs, rfl, hs, hm⟩ := h
  constructor
  · intro hu m hmem
    cases hu with
    | obj _ h2 => exact h2 (lit m.1, m.2) ((hm _ _).2 ⟨m, hmem, rfl, rfl⟩)
  · intro hall
    refine .obj (fun kv hkv => ?_) (fun kv hkv => ?_)
    · obtain ⟨m, h1, h2, _⟩ := (hm kv.1 kv.2).1 hkv
      rw [h2]
      exact hk m h1
    · obtain ⟨m, h1, _, h3⟩ := (hm kv.1 kv.2).1 hkv
      rw [h3]
      exact hall m h1

theorem typeOf_iff {b : Body} (hb : Holdable b) (t : Str) :
    b.header.value (lit "msg_type") Json.getStr [] = .ok t ↔ TypeOf b t := by
  unfold TypeOf
  have hc := hb.1
  cases hh : b.header with
  | obj kvs =>
    rw [hh] at hc
    simp only [Json.canon, Bool.and_eq_true] at hc
    simp only [Json.value, Json.obj.injEq]
    constructor
    · intro h
      refine ⟨kvs, rfl, ?_⟩
      rw [mem_iff_lookup hc.1]
      cases hl : Json.lookup (lit "msg_type") kvs with
      | none =>
        rw [hl] at h
        refine .inr ⟨(Res.ok.inj h).symm, fun v hv => ?_⟩
        rw [mem_iff_lookup hc.1, hl] at hv
        cases hv
      | some v =>
        rw [hl] at h
        cases v <;> simp [Json.getStr] at h
        subst h
        exact .inl rfl
    · rintro ⟨kvs', rfl, h⟩
      rcases h with h | ⟨rfl, h⟩
      · rw [mem_iff_lookup hc.1] at h
        rw [h]
        rfl
      · cases hl : Json.lookup (lit "msg_type") kvs with
        | none => rfl
        | some v => exact absurd ((mem_iff_lookup hc.1 _ _).2 hl) (h v)
  | _ => simp [Json.value]

/-- A record that can be built. -/
theorem record_ok {b : Body} (hb : Holdable b) {t : Str} (ht : TypeOf b t) (level : Level) :
    ∃ r, record level b = .ok r ∧ ObjectOf r (shown b t level) ∧ r.canon = true ∧ (JsonUtf8 r ↔ ShownUtf8 b t level) := by
  have hv := (typeOf_iff hb t).2 ht
  obtain ⟨h1, h2, h3, h4⟩ := hb
  have f1 := objectOf_first "msg_type" (.str t)
  have c1 : (Json.null.put (lit "msg_type") (.str t)).canon = true := Json.canon_put _ (by rfl) (by rfl)
  unfold record
  rw [hv, Res.bind_ok]
  cases level with
  | msgType =>
    exact ⟨_, rfl, f1, c1, objectOf_utf8 f1 ["msg_type"] rfl (by decide)⟩
  | content =>
    have f2 := objectOf_put f1 "content" b.content ["msg_type"] rfl (by decide)
    refine ⟨_, rfl, f2, Json.canon_put _ c1 h4, objectOf_utf8 f2 ["msg_type", "content"] rfl (by decide)⟩
  | full =>
    have f2 := objectOf_put f1 "header" b.header ["msg_type"] rfl (by decide)
    have f3 := objectOf_put f2 "parent_header" b.parent ["msg_type", "header"] rfl (by decide)
    have f4 := objectOf_put f3 "metadata" b.metadata ["msg_type", "header", "parent_header"] rfl (by decide)
    have f5 := objectOf_put f4 "content" b.content ["msg_type", "header", "parent_header", "metadata"] rfl (by decide)
    refine ⟨_, rfl, f5, Json.canon_put _ (Json.canon_put _ (Json.canon_put _ (Json.canon_put _ c1 h1) h2) h3) h4, objectOf_utf8 f5 ["msg_type", "header", "parent_header", "metadata", "content"] rfl (by decide)⟩

/-- A header of the wrong kind. -/
theorem record_exc {b : Body} (hb : Holdable b) (h : ∀ t, ¬ TypeOf b t) (level : Level) : record level b = .exc .typeError := by
  unfold record
  rcases value_str_cases b.header (lit "msg_type") [] with ⟨t, ht⟩ | he
  · exact absurd ((typeOf_iff hb t).1 ht) (h t)
  · rw [he]
    rfl

theorem writeRecord_ok {K : Codec} {dump4 : Json → Option Str} (hp : LawfulPretty K dump4) {info : Str} {b : Body} {t : Str}
    {l : Logger} {r : Json} (ho : ObjectOf r (shown b t l.level)) (hc : r.canon = true)
    (hu : JsonUtf8 r ↔ ShownUtf8 b t l.level) (hcan : CanLog info b t l) :
    ∃ w, writeRecord dump4 l.sink info r = (.ok (), [w]) ∧ Entry K info b t l w := by
  have hru := hu.2 hcan.1
  cases hs : l.sink with
  | console =>
    obtain ⟨text, h1, h2⟩ := hp.valid r hc hru
    refine ⟨_, (by simp only [writeRecord, h1]; rfl), r, text, ho, ?_⟩
    rw [hs]
    exact ⟨rfl, h2⟩
  | file name =>
    have f1 := objectOf_first "info" (.str info)
    have f2 := objectOf_put f1 "message" r ["info"] rfl (by decide)
    have hcan2 : ((Json.null.put (lit "info") (.str info)).put (lit "message") r).canon = true :=
      Json.canon_put _ (Json.canon_put _ (by rfl) (by rfl)) hc
    have hu2 : JsonUtf8 ((Json.null.put (lit "info") (.str info)).put (lit "message") r) := by
      refine (objectOf_utf8 f2 ["info", "message"] rfl (by decide)).2 ?_
      intro m hm
      simp at hm
      rcases hm with rfl | rfl
      · exact .str (hcan.2 name hs)
      · exact hru
    obtain ⟨text, h1, h2⟩ := hp.valid _ hcan2 hu2
    refine ⟨_, (by simp only [writeRecord, h1]; rfl), r, text, ho, ?_⟩
    rw [hs]
    exact ⟨rfl, _, h2, f2⟩

theorem writeRecord_exc {K : Codec} {dump4 : Json → Option Str} (hp : LawfulPretty K dump4) {info : Str} {b : Body} {t : Str}
    {l : Logger} {r : Json} (hu : JsonUtf8 r ↔ ShownUtf8 b t l.level) (hcan : ¬ CanLog info b t l) :
    ∃ ws, writeRecord dump4 l.sink info r = (.exc .typeError, ws) ∧ (ws = [] ∨ ws = [(.console, info ++ lit "\n")]) := by
  cases hs : l.sink with
  | console =>
    have : ¬ JsonUtf8 r := fun h => hcan ⟨hu.1 h, fun name e => by rw [hs] at e; cases e⟩
    exact ⟨_, by simp only [writeRecord, hp.invalid _ this], .inr rfl⟩
  | file name =>
    have f1 := objectOf_first "info" (.str info)
    have f2 := objectOf_put f1 "message" r ["info"] rfl (by decide)
    have : ¬ JsonUtf8 ((Json.null.put (lit "info") (.str info)).put (lit "message") r) := by
      intro h
      have h := (objectOf_utf8 f2 ["info", "message"] rfl (by decide)).1 h
      have hi := h ("info", .str info) (by simp)
      have hr := h ("message", r) (by simp)
      refine hcan ⟨hu.1 hr, fun _ _ => ?_⟩
      cases hi
      assumption
    exact ⟨_, by simp only [writeRecord, hp.invalid _ this], .inl rfl⟩

theorem logMessage_ok {K : Codec} {dump4 : Json → Option Str} (hp : LawfulPretty K dump4) {info : Str} {b : Body} {t : Str}
    (hb : Holdable b) (ht : TypeOf b t) : ∀ chain : Chain, (∀ l ∈ chain, CanLog info b t l) →
    ∃ ws, logMessage dump4 info b chain = (.ok (), ws) ∧ Entries K info b t chain ws
  | [], _ => ⟨[], rfl, .nil⟩
  | l :: chain, h => by
    obtain ⟨r, e1, e2, e3, e4⟩ := record_ok hb ht l.level
    obtain ⟨w, e5, e6⟩ := writeRecord_ok hp e2 e3 e4 (h l (by simp))
    obtain ⟨ws, e7, e8⟩ := logMessage_ok hp hb ht chain (fun x hx => h x (by simp [hx]))
    exact ⟨w :: ws, by simp only [logMessage, e1, e5, e7, List.singleton_append], .cons l chain w ws e6 e8⟩

theorem logMessage_stops {K : Codec} {dump4 : Json → Option Str} (hp : LawfulPretty K dump4) {info : Str} {b : Body} {t : Str}
    (hb : Holdable b) (ht : TypeOf b t) (l : Logger) (post : Chain) (hl : ¬ CanLog info b t l) : ∀ pre : Chain,
    (∀ l ∈ pre, CanLog info b t l) → ∃ ws last, logMessage dump4 info b (pre ++ l :: post) = (.exc .typeError, ws ++ last) ∧
      Entries K info b t pre ws ∧ (last = [] ∨ last = [(.console, info ++ lit "\n")])
  | [], _ => by
    obtain ⟨r, e1, e2, e3, e4⟩ := record_ok hb ht l.level
    obtain ⟨last, e5, e6⟩ := writeRecord_exc hp e4 hl
    exact ⟨[], last, by simp only [logMessage, List.nil_append, e1, e5], .nil, e6⟩
  | x :: pre, h => by
    obtain ⟨r, e1, e2, e3, e4⟩ := record_ok hb ht x.level
    obtain ⟨w, e5, e6⟩ := writeRecord_ok hp e2 e3 e4 (h x (by simp))
    obtain ⟨ws, last, e7, e8, e9⟩ := logMessage_stops hp hb ht l post hl pre (fun x hx => h x (by simp [hx]))
    exact ⟨w :: ws, last, by simp only [logMessage, List.cons_append, e1, e5, e7, List.nil_append], .cons x pre w ws e6 e8, e9⟩

theorem shownId_ok (id : Str) (rest : List Str) : ∃ s, shownId (id :: rest) = .ok s ∧ (Utf8 id → s = id) ∧
    (¬ Utf8 id → s = lit "invalid UTF8") := by
  unfold shownId
  rcases C10_utf8_validity id with ⟨h, hu⟩ | ⟨h, hu⟩
  · exact ⟨id, by simp [h], fun _ => rfl, fun hn => absurd hu hn⟩
  · exact ⟨lit "invalid UTF8", by simp [h], fun hn => absurd hn hu, fun _ => rfl⟩

theorem infoOf_iff (e : LogEv) (info : Str) : infoOf e = .ok info ↔ Introduces e info := by
  have key : ∀ (ids : List Str) (a z : Str), (do let id ← shownId ids; return a ++ id : Res Str) = .ok z ↔
      ∃ id rest, ids = id :: rest ∧ ∃ s, (Utf8 id → s = id) ∧ (¬ Utf8 id → s = lit "invalid UTF8") ∧ z = a ++ s := by
    intro ids a z
    cases ids with
    | nil => simp [shownId]
    | cons id rest =>
      obtain ⟨s, h1, h2, h3⟩ := shownId_ok id rest
      rw [h1, Res.bind_ok]
      constructor
      · intro h
        exact ⟨id, rest, rfl, s, h2, h3, (Res.ok.inj h).symm⟩
      · rintro ⟨_, _, e, s', h2', h3', rfl⟩
        cases e
        have : s' = s := by
          by_cases hu : Utf8 id
          · rw [h2 hu, h2' hu]
          · rw [h3 hu, h3' hu]
        rw [this]
        rfl
  cases e with
  | received c m =>
    simp only [infoOf, Introduces]
    exact key m.ids _ info
  | sent c m =>
    simp only [infoOf, Introduces]
    exact key m.ids _ info
  | iopub m => simp [infoOf, Introduces, eq_comm]

theorem deserialize_representable {C : Crypto} {K : Codec} (LK : LawfulCodec K) {a : Auth} {q : Multipart} {m : XMessage}
    (h : deserialize C K a q = .ok m) : Representable m.body := by
  rcases deserialize_cases C K a q with ⟨m', ⟨_, _, _, _, _, _, h1, h2, h3, h4, _⟩, hd⟩ | ⟨_, e, he, _⟩ | ⟨_, e, he⟩
  · rw [h] at hd
    obtain rfl := Res.ok.inj hd
    exact ⟨LK.parse_wf _ _ h1, LK.parse_wf _ _ h2, LK.parse_wf _ _ h3, LK.parse_wf _ _ h4⟩
  · rw [h] at he; simp at he
  · rw [h] at he; simp at he

theorem utf8_member {kvs : List (Str × Json)} (h : JsonUtf8 (.obj kvs)) {k : Str} {v : Json} (hm : (k, v) ∈ kvs) :
    Utf8 k ∧ JsonUtf8 v := by
  cases h with
  | obj h1 h2 => exact ⟨h1 _ hm, h2 _ hm⟩

theorem messageOf_eq (e : LogEv) : messageOf e = bodyOf e := by cases e <;> rfl

end Xeus.Log
