import Verif.Setup.Spec
import Verif.Setup.Decimal

/-!
# Setting up a kernel: lemmas
-/

namespace Xeus.Setup

open Xeus Xeus.Setup.Spec

theorem decimal_self (n : Int) : Decimal n (intToString n) := by
  have h := natDigits_spec n.natAbs
  refine ⟨natDigits n.natAbs, h.1, h.2.1, (noLead_natDigits _).2.2, ?_⟩
  by_cases hn : n < 0
  · exact .inr ⟨hn, by simp [intToString, hn], by rw [h.2.2.1]; omega⟩
  · exact .inl ⟨by omega, by simp [intToString, hn], by rw [h.2.2.1]; omega⟩

theorem decimal_iff (n : Int) (s : Str) : Decimal n s ↔ s = intToString n := by
  constructor
  · rintro ⟨ds, h1, h2, h3, h4⟩
    have h := natDigits_spec n.natAbs
    have hd : ds = natDigits n.natAbs := by
      refine noLead_inj ⟨h1, h2, h3⟩ (noLead_natDigits _) ?_
      rw [h.2.2.1]
      omega
    rcases h4 with ⟨h5, h6, _⟩ | ⟨h5, h6, _⟩
    · rw [h6, hd]; simp [intToString, Int.not_lt.2 h5]
    · rw [h6, hd]; simp [intToString, h5]
  · rintro rfl
    exact decimal_self n

/-! ## Members -/

theorem lookup_eq_of_mem {k : Str} {v : Json} : ∀ {l : List (Str × Json)}, Json.sortedKeys l = true → (k, v) ∈ l →
    Json.lookup k l = some v
  | (k', v') :: r, hs, hm => by
    rcases List.mem_cons.1 hm with h | h
    · cases h; simp [Json.lookup]
    · have hlt : strLt k' k = true := by
        clear hm
        induction r generalizing k' v' with
        | nil => simp at h
        | cons y ys ih =>
          obtain ⟨ky, vy⟩ := y
          simp only [Json.sortedKeys, Bool.and_eq_true] at hs
          rcases List.mem_cons.1 h with h' | h'
          · cases h'; exact hs.1
          · exact strLt_trans hs.1 (ih _ _ hs.2 h')
      have hne : k ≠ k' := by
        rintro rfl
        rw [strLt_irrefl] at hlt; simp at hlt
      have ih := lookup_eq_of_mem (Json.sortedKeys_tail hs) h
      simp only [Json.lookup]
      first
      | (rw [if_neg hne]; exact ih)
      | (rw [if_neg (Ne.symm hne)]; exact ih)
      | (simp [hne, Ne.symm hne, ih])

theorem member_iff {doc : Json} (hd : doc.canon = true) (k : String) (v : Json) :
    Member doc k v ↔ ∃ kvs, doc = .obj kvs ∧ Json.lookup (lit k) kvs = some v := by
  constructor
  · rintro ⟨kvs, rfl, hm⟩
    simp only [Json.canon, Bool.and_eq_true] at hd
    exact ⟨kvs, rfl, lookup_eq_of_mem hd.1 hm⟩
  · rintro ⟨kvs, rfl, hl⟩
    exact ⟨kvs, rfl, Json.lookup_mem hl⟩

theorem strAt_iff {doc : Json} (hd : doc.canon = true) (k : String) (s : Str) :
    strAt doc k = .ok s ↔ Member doc k (.str s) := by
  rw [member_iff hd]
  cases doc with
  | obj kvs =>
    cases hl : Json.lookup (lit k) kvs with
    | none => simp [strAt, Json.idx, hl, Json.getStr]
    | some v => cases v <;> simp [strAt, Json.idx, hl, Json.getStr]
  | _ => simp [strAt, Json.idx, Json.getStr]

theorem intOf_iff (v : Json) (n : Int) : IntOf v n ↔ v.getInt = .ok n := by
  cases v with
  | int i =>
    simp only [IntOf, Json.getInt, Json.int.injEq, reduceCtorEq, false_and, exists_false, or_false, Res.ok.injEq]
    constructor
    · rintro ⟨i', q, rfl, h1, h2⟩
      unfold InInt intMin intMax at h1
      unfold wrap32
      omega
    · rintro rfl
      refine ⟨i, (i + 2147483648) / 4294967296, rfl, wrap32_range i, ?_⟩
      unfold wrap32
      omega
  | bool b => cases b <;> simp [IntOf, Json.getInt] <;> exact eq_comm
  | float b =>
    rw [getInt_float]
    simp only [IntOf, reduceCtorEq, false_and, exists_false, false_or, Json.float.injEq, exists_eq_left', ← doubleInt_iff]
    cases Xeus.Spec.doubleInt b <;> simp
  | _ => simp [IntOf, Json.getInt]

theorem portAt_iff {doc : Json} (hd : doc.canon = true) (k : String) (s : Str) :
    portAt doc k = .ok s ↔ PortMember doc k s := by
  simp only [PortMember, member_iff hd, intOf_iff, decimal_iff, portAt, Res.bind_eq_ok]
  cases doc with
  | obj kvs =>
    simp only [Json.idx, Json.obj.injEq]
    cases hl : Json.lookup (lit k) kvs with
    | none =>
      simp [Json.getInt, hl]
    | some v =>
      simp only [Res.ok.injEq, exists_eq_left']
      constructor
      · rintro ⟨n, h1, h2⟩
        exact ⟨v, n, hl, h1, (by simpa [pure] using h2.symm)⟩
      · rintro ⟨v', n, h0, h1, rfl⟩
        rw [hl] at h0
        cases h0
        exact ⟨n, h1, rfl⟩
  | _ => simp [Json.idx, Json.getInt]

theorem scheme_iff {doc : Json} (hd : doc.canon = true) (ho : ∃ k v, Member doc k v) (s : Str) :
    doc.value (lit "signature_scheme") Json.getStr [] = .ok s ↔
      Member doc "signature_scheme" (.str s) ∨ (s = [] ∧ ∀ v, ¬ Member doc "signature_scheme" v) := by
  obtain ⟨_, _, kvs, rfl, -⟩ := ho
  simp only [member_iff hd, Json.value, Json.obj.injEq, exists_eq_left']
  cases hl : Json.lookup (lit "signature_scheme") kvs with
  | none => simp [eq_comm]
  | some v => cases v <;> simp [Json.getStr]

theorem keyOf_iff {doc : Json} (hd : doc.canon = true) (scheme key : Str) :
    keyOf doc scheme = .ok key ↔ (scheme ≠ [] ∧ Member doc "key" (.str key)) ∨ (scheme = [] ∧ key = []) := by
  unfold keyOf
  by_cases h : scheme = []
  · simp [h, eq_comm]
  · simp only [h, ne_eq, not_false_eq_true, if_true, true_and, false_and, or_false, strAt_iff hd]

theorem configOf_iff {doc : Json} (hd : doc.canon = true) (c : Config) : configOf doc = .ok c ↔ Describes doc c := by
  constructor
  · intro h
    simp only [configOf, Res.bind_eq_ok] at h
    obtain ⟨t, h1, i, h2, p1, h3, p2, h4, p3, h5, p4, h6, p5, h7, sc, h8, key, h9, h⟩ := h
    rw [strAt_iff hd] at h1 h2
    rw [portAt_iff hd] at h3 h4 h5 h6 h7
    rw [scheme_iff hd ⟨_, _, h1⟩] at h8
    rw [keyOf_iff hd] at h9
    cases h
    refine ⟨h1, h2, h3, h4, h5, h6, h7, ?_⟩
    rcases h9 with ⟨hs, hk⟩ | ⟨rfl, rfl⟩
    · rcases h8 with h8 | ⟨h8, -⟩
      · exact .inl ⟨hs, h8, hk⟩
      · exact absurd h8 hs
    · rcases h8 with h8 | ⟨-, h8⟩
      · exact .inr ⟨rfl, rfl, .inl h8⟩
      · exact .inr ⟨rfl, rfl, .inr h8⟩
  · rintro ⟨h1, h2, h3, h4, h5, h6, h7, h8⟩
    have hs : doc.value (lit "signature_scheme") Json.getStr [] = .ok c.scheme ∧ keyOf doc c.scheme = .ok c.key := by
      rw [scheme_iff hd ⟨_, _, h1⟩, keyOf_iff hd]
      rcases h8 with ⟨hs, h8, hk⟩ | ⟨hs, hk, h8⟩
      · exact ⟨.inl h8, .inl ⟨hs, hk⟩⟩
      · rw [hs, hk]
        exact ⟨h8.imp id fun h => ⟨rfl, h⟩, .inr ⟨rfl, rfl⟩⟩
    rw [← strAt_iff hd] at h1 h2
    rw [← portAt_iff hd] at h3 h4 h5 h6 h7
    simp only [configOf, Res.bind_eq_ok]
    exact ⟨_, h1, _, h2, _, h3, _, h4, _, h5, _, h6, _, h7, _, hs.1, _, hs.2, rfl⟩

/-- Success, or a type error, or, under the condition, undefined behaviour. -/
def Fair {α : Type} (p : Prop) (r : Res α) : Prop := (∃ a, r = .ok a) ∨ r = .exc .typeError ∨ (p ∧ ∃ w, r = .ub w)

theorem Fair.ok {α : Type} {p : Prop} (a : α) : Fair p (.ok a) := .inl ⟨a, rfl⟩

theorem Fair.bind {α β : Type} {p : Prop} {r : Res α} {f : α → Res β} (h : Fair p r) (hf : ∀ a, Fair p (f a)) :
    Fair p (r.bind f) := by
  rcases h with ⟨a, rfl⟩ | rfl | ⟨hp, w, rfl⟩
  · exact hf a
  · exact .inr (.inl rfl)
  · exact .inr (.inr ⟨hp, w, rfl⟩)

theorem fair_idx {p : Prop} (doc : Json) (k : Str) : Fair p (doc.idx k) := by
  cases doc with
  | obj kvs => simp only [Json.idx]; split <;> exact .inl ⟨_, rfl⟩
  | null => exact .inl ⟨_, rfl⟩
  | _ => exact .inr (.inl rfl)

theorem fair_getStr {p : Prop} (v : Json) : Fair p v.getStr := by
  cases v with
  | str s => exact .inl ⟨_, rfl⟩
  | _ => exact .inr (.inl rfl)

theorem fair_getInt {p : Prop} (v : Json) (hp : (∃ b, v = .float b ∧ ∀ n, ¬ IntOf v n) → p) : Fair p v.getInt := by
  cases v with
  | int s => exact .inl ⟨_, rfl⟩
  | bool s => exact .inl ⟨_, rfl⟩
  | float b =>
    have h := intOf_iff (.float b)
    rw [getInt_float] at h ⊢
    cases hd : Xeus.Spec.doubleInt b with
    | some n => exact .inl ⟨n, rfl⟩
    | none =>
      rw [hd] at h
      exact .inr (.inr ⟨hp ⟨b, rfl, fun n hn => by have := (h n).1 hn; cases this⟩, _, rfl⟩)
  | _ => exact .inr (.inl rfl)

theorem fair_strAt {p : Prop} (doc : Json) (k : String) : Fair p (strAt doc k) := (fair_idx _ _).bind fun _ => fair_getStr _

theorem fair_portAt {p : Prop} {doc : Json} (hd : doc.canon = true) (k : String) (hp : WildMember doc k → p) :
    Fair p (portAt doc k) := by
  unfold portAt
  cases doc with
  | obj kvs =>
    simp only [Json.idx]
    cases hl : Json.lookup (lit k) kvs with
    | none => exact .inr (.inl rfl)
    | some v =>
      refine (fair_getInt v fun ⟨b, e, h⟩ => hp ⟨b, ?_, e ▸ h⟩).bind fun _ => .ok _
      rw [member_iff hd]
      exact ⟨kvs, rfl, e ▸ hl⟩
  | _ => exact .inr (.inl rfl)

theorem portAt_wild {doc : Json} (hd : doc.canon = true) {k : String} (h : WildMember doc k) :
    ∃ w, portAt doc k = .ub w := by
  obtain ⟨b, hm, hn⟩ := h
  obtain ⟨kvs, rfl, hl⟩ := (member_iff hd k _).1 hm
  refine ⟨"conversion of a double that does not fit", ?_⟩
  simp only [intOf_iff, getInt_float] at hn
  have : Xeus.Spec.doubleInt b = none := by
    cases h : Xeus.Spec.doubleInt b with
    | none => rfl
    | some n => rw [h] at hn; exact absurd rfl (hn n)
  simp only [portAt, Json.idx, hl, getInt_float, this, Res.bind_ok]
  rfl

theorem fair_value {p : Prop} (doc : Json) (k : Str) (d : Str) : Fair p (doc.value k Json.getStr d) := by
  cases doc with
  | obj kvs =>
    simp only [Json.value]
    split
    · exact fair_getStr _
    · exact .ok _
  | _ => exact .inr (.inl rfl)

theorem fair_configOf {doc : Json} (hd : doc.canon = true) : Fair (∃ k ∈ portNames, WildMember doc k) (configOf doc) := by
  refine (fair_strAt _ _).bind fun _ => (fair_strAt _ _).bind fun _ =>
    (fair_portAt hd _ fun h => ⟨_, by simp [portNames], h⟩).bind fun _ =>
    (fair_portAt hd _ fun h => ⟨_, by simp [portNames], h⟩).bind fun _ =>
    (fair_portAt hd _ fun h => ⟨_, by simp [portNames], h⟩).bind fun _ =>
    (fair_portAt hd _ fun h => ⟨_, by simp [portNames], h⟩).bind fun _ =>
    (fair_portAt hd _ fun h => ⟨_, by simp [portNames], h⟩).bind fun _ => (fair_value _ _ _).bind fun sc => Fair.bind ?_ fun _ => .ok _
  unfold keyOf
  split
  · exact fair_strAt _ _
  · exact .ok _

theorem port_or {doc : Json} (hd : doc.canon = true) {k : String} (h : (∃ s, PortMember doc k s) ∨ WildMember doc k) :
    (∃ s, portAt doc k = .ok s) ∨ ∃ w, portAt doc k = .ub w := by
  rcases h with ⟨s, h⟩ | h
  · exact .inl ⟨s, (portAt_iff hd k s).2 h⟩
  · exact .inr (portAt_wild hd h)

/-! ## Ports -/

theorem afterLast_append (c : UInt8) (a b : Str) (hb : c ∉ b) : afterLast c (a ++ c :: b) = b := by
  induction a with
  | nil => simp [afterLast, hb]
  | cons x a ih => simp [afterLast, ih]

theorem afterLast_none (c : UInt8) (a : Str) (h : c ∉ a) : afterLast c a = a := by
  cases a with
  | nil => rfl
  | cons x a =>
    simp only [List.mem_cons, not_or] at h
    simp [afterLast, h.2, Ne.symm h.1]

theorem endPoint_tcp (ip port : Str) : getEndPoint (lit "tcp") ip port = lit "tcp://" ++ ip ++ 58 :: port := by
  have : lit "tcp" ++ lit "://" = lit "tcp://" := by decide
  simp only [getEndPoint, if_pos, this, List.append_assoc, List.singleton_append]

theorem endPoint_other {transport : Str} (h : transport ≠ lit "tcp") (ip port : Str) :
    getEndPoint transport ip port = transport ++ 58 :: (lit "//" ++ ip ++ 45 :: port) := by
  have : lit "://" = 58 :: lit "//" := by decide
  simp [getEndPoint, if_neg h, this]

theorem intToString_chars (n : Int) : ∀ c ∈ intToString n, isDigit c = true ∨ c = 45 := by
  intro c hc
  unfold intToString at hc
  have h := (natDigits_spec n.natAbs).2.1
  split at hc
  · rcases List.mem_cons.1 hc with rfl | hc
    · exact .inr rfl
    · exact .inl (h c hc)
  · exact .inl (h c hc)

theorem no_colon (n : Int) : (58 : UInt8) ∉ intToString n := by
  intro h
  rcases intToString_chars n 58 h with h | h <;> revert h <;> decide

theorem intToString_ne (n : Int) : intToString n ≠ [] := by
  unfold intToString
  split
  · simp
  · exact (natDigits_spec _).1

theorem tryPorts_spec (w : World) (d : Nat → Int) (transport ip : Str) (s : Socket) : ∀ left i,
    (∃ j last, i ≤ j ∧ j < i + left ∧
      w.net j (getEndPoint transport ip (intToString (d j))) = some last ∧
      (∀ l, i ≤ l → l < j → w.net l (getEndPoint transport ip (intToString (d l))) = none) ∧
      tryPorts w d transport ip s left i = (intToString (d j),
        { s with bound := s.bound ++ [getEndPoint transport ip (intToString (d j))], last := last })) ∨
    ((∀ l, i ≤ l → l < i + left → w.net l (getEndPoint transport ip (intToString (d l))) = none) ∧
      tryPorts w d transport ip s left i = ([], s))
  | 0, i => .inr ⟨fun l h1 h2 => by omega, rfl⟩
  | left + 1, i => by
    cases hn : w.net i (getEndPoint transport ip (intToString (d i))) with
    | some last =>
      refine .inl ⟨i, last, Nat.le_refl _, by omega, hn, fun l h1 h2 => by omega, ?_⟩
      simp only [tryPorts, hn]
    | none =>
      have e : tryPorts w d transport ip s (left + 1) i = tryPorts w d transport ip s left (i + 1) := by
        simp only [tryPorts, hn]
      rw [e]
      rcases tryPorts_spec w d transport ip s left (i + 1) with ⟨j, last, h1, h2, h3, h4, h5⟩ | ⟨h1, h2⟩
      · refine .inl ⟨j, last, by omega, by omega, h3, fun l hl1 hl2 => ?_, h5⟩
        by_cases hl : l = i
        · rw [hl, hn]
        · exact h4 l (by omega) hl2
      · refine .inr ⟨fun l hl1 hl2 => ?_, h2⟩
        by_cases hl : l = i
        · rw [hl, hn]
        · exact h1 l (by omega) (by omega)

theorem started_given (w : World) (transport ip port : Str) (hv : Verbatim w transport ip) (s : Socket) (hne : port ≠ [])
    (h : initSocket w .new transport ip port = .ok s) : BoundTo s transport ip port := by
  rw [initSocket, if_pos hne, bindTo] at h
  cases hn : w.net 0 (getEndPoint transport ip port) with
  | none => rw [hn] at h; cases h
  | some last =>
    rw [hn] at h
    cases h
    exact ⟨rfl, hv 0 port last hn⟩

theorem started_of {w : World} {ip port : Str} {s : Socket} (hw : Draws w) (hv : Verbatim w (lit "tcp") ip) (hp : 58 ∉ port)
    (h : initSocket w .new (lit "tcp") ip port = .ok s) (hl : s.last.length ≤ 31) :
    ∃ shown, getSocketPort s = .ok shown ∧ Started w s (lit "tcp") ip port shown := by
  have hg : ∀ q, (58 : UInt8) ∉ q → BoundTo s (lit "tcp") ip q → getSocketPort s = .ok q := by
    intro q hq hb
    rw [getSocketPort, if_pos (by omega), hb.2, endPoint_tcp, afterLast_append _ _ _ hq]
  by_cases hne : port = []
  · subst hne
    rw [initSocket, if_neg (by simp), findFreePortImpl, if_pos (by decide)] at h
    rcases tryPorts_spec w (w.draw 49152 65536) (lit "tcp") ip .new 100 0 with ⟨j, last, _, h2, h3, _, h5⟩ | ⟨h1, h2⟩
    · rw [h5] at h
      cases h
      have hb : BoundTo { Socket.new with bound := Socket.new.bound ++ [getEndPoint (lit "tcp") ip (intToString (w.draw 49152 65536 j))], last := last }
          (lit "tcp") ip (intToString (w.draw 49152 65536 j)) := ⟨rfl, hv _ _ _ h3⟩
      exact ⟨_, hg _ (no_colon _) hb, .inr (.inl ⟨rfl, j, by omega, decimal_self _, (hw 49152 65536 (by decide) j).1, (hw 49152 65536 (by decide) j).2, hb⟩)⟩
    · rw [h2] at h
      cases h
      refine ⟨[], rfl, .inr (.inr ⟨rfl, rfl, rfl, fun i hi q hq => ?_⟩)⟩
      rw [(decimal_iff _ _).1 hq]
      exact h1 i (by omega) (by omega)
  · have hb := started_given w _ ip port hv s hne h
    exact ⟨port, hg _ hp hb, .inl ⟨hne, rfl, hb⟩⟩

end Xeus.Setup
