import Verif.Kernels.Hist
import Verif.History.Props

/-!
# Questions to a history manager: lemmas (no property statements here)
-/

namespace Xeus

open Spec

variable {env : Env}

theorem int_cases {c : Json} (ho : c.isObj = true) (k : String) (d : Int) :
    (∃ n, intField c k d = some n ∧ c.value (lit k) Json.getInt d = .ok n) ∨
    intField c k d = none ∧ (c.value (lit k) Json.getInt d = .exc .typeError ∨ Wild c k ∧ ∃ s, c.value (lit k) Json.getInt d = .ub s) := by
  cases hf : intField c k d with
  | some n => exact .inl ⟨n, rfl, intField_value ho hf⟩
  | none =>
    refine .inr ⟨rfl, ?_⟩
    rcases value_int_cases c k d with ⟨n, h⟩ | h | ⟨_, hw, h⟩
    · exfalso
      cases c <;> simp [Json.isObj] at ho
      rename_i kvs
      simp only [intField, Json.find?] at hf
      simp only [Json.value] at h
      cases hl : Json.lookup (lit k) kvs with
      | none => simp [hl] at hf
      | some v =>
        rw [hl] at hf h
        cases v <;> simp [Json.getInt] at hf h
        case float b =>
          unfold doubleInt at hf
          cases ht : Double.trunc b with
          | none => rw [ht] at h; cases h
          | some z =>
            rw [ht] at hf h
            by_cases hz : InInt z
            · simp [hz] at hf
            · simp [hz] at h
    · exact .inl h
    · exact .inr ⟨hw, _, h⟩

theorem str_cases {c : Json} (ho : c.isObj = true) (k d : String) :
    (∃ s, strField c k d = some s ∧ c.value (lit k) Json.getStr (lit d) = .ok s) ∨
    strField c k d = none ∧ c.value (lit k) Json.getStr (lit d) = .exc .typeError := by
  cases hf : strField c k d with
  | some n => exact .inl ⟨n, rfl, strField_value ho hf⟩
  | none =>
    refine .inr ⟨rfl, ?_⟩
    cases c <;> simp [Json.isObj] at ho
    rename_i kvs
    simp only [strField, Json.find?] at hf
    simp only [Json.value]
    cases hl : Json.lookup (lit k) kvs with
    | none => simp [hl] at hf
    | some v =>
      rw [hl] at hf
      cases v <;> simp [Json.getStr] at hf ⊢

theorem bool_cases {c : Json} (ho : c.isObj = true) (k : String) (d : Bool) :
    (∃ b, boolField c k d = some b ∧ c.value (lit k) Json.getBool d = .ok b) ∨
    boolField c k d = none ∧ c.value (lit k) Json.getBool d = .exc .typeError := by
  cases hf : boolField c k d with
  | some n => exact .inl ⟨n, rfl, boolField_value ho hf⟩
  | none =>
    refine .inr ⟨rfl, ?_⟩
    cases c <;> simp [Json.isObj] at ho
    rename_i kvs
    simp only [boolField, Json.find?] at hf
    simp only [Json.value]
    cases hl : Json.lookup (lit k) kvs with
    | none => simp [hl] at hf
    | some v =>
      rw [hl] at hf
      cases v <;> simp [Json.getBool] at hf ⊢

theorem request_cases (M : HistoryManager) (h : Hist) (c : Json) :
    (∃ Q, Asks c Q ∧ historyRequest M h c = Q.ask M h) ∨ (AsksNothing c ∧ historyRequest M h c = .ok .null) ∨
      (HistBad c ∧ ((∃ e, historyRequest M h c = .exc e) ∨ (∃ k ∈ ["n", "session", "start", "stop"], Wild c k) ∧ ∃ s, historyRequest M h c = .ub s)) := by
  cases ho : c.isObj with
  | false => exact .inr (.inr ⟨.inl ho, .inl ⟨_, C45_refused M h c (.inl ho)⟩⟩)
  | true =>
  rcases str_cases ho "hist_access_type" "tail" with ⟨a, ha, va⟩ | ⟨ha, va⟩
  rotate_left
  · exact .inr (.inr ⟨.inr (.inl ha), .inl ⟨_, C45_refused M h c (.inr ha)⟩⟩)
  have n1 : ¬ lit "tail" = lit "search" := by decide
  have n2 : ¬ lit "tail" = lit "range" := by decide
  have n3 : ¬ lit "search" = lit "tail" := by decide
  have n4 : ¬ lit "search" = lit "range" := by decide
  have n5 : ¬ lit "range" = lit "tail" := by decide
  have n6 : ¬ lit "range" = lit "search" := by decide
  have exn : ∀ {e : Exc}, historyRequest M h c = .exc e → HistBad c →
      (HistBad c ∧ ((∃ e, historyRequest M h c = .exc e) ∨ (∃ k ∈ ["n", "session", "start", "stop"], Wild c k) ∧ ∃ s, historyRequest M h c = .ub s)) := fun h hb => ⟨hb, .inl ⟨_, h⟩⟩
  have ubn : ∀ {s : String} (k : String), k ∈ ["n", "session", "start", "stop"] → Wild c k → historyRequest M h c = .ub s → HistBad c →
      (HistBad c ∧ ((∃ e, historyRequest M h c = .exc e) ∨ (∃ k ∈ ["n", "session", "start", "stop"], Wild c k) ∧ ∃ s, historyRequest M h c = .ub s)) := fun k hk hw h hb => ⟨hb, .inr ⟨⟨k, hk, hw⟩, _, h⟩⟩
  by_cases e1 : a = lit "tail"
  · subst e1
    have bad : intField c "n" 10 = none ∨ boolField c "raw" true = none ∨ boolField c "output" false = none → HistBad c :=
      fun h => .inr (.inr (.inl ⟨ha, h⟩))
    rcases int_cases ho "n" 10 with ⟨n, f1, v1⟩ | ⟨f1, v1 | ⟨hw, s, v1⟩⟩
    rotate_left
    · exact .inr (.inr (exn (e := .typeError) (by simp [historyRequest, va, v1]) (bad (.inl f1))))
    · exact .inr (.inr (ubn (s := s) "n" (by simp) hw (by simp [historyRequest, va, v1]) (bad (.inl f1))))
    rcases bool_cases ho "raw" true with ⟨raw, f2, v2⟩ | ⟨f2, v2⟩
    rotate_left
    · exact .inr (.inr (exn (e := .typeError) (by simp [historyRequest, va, v1, v2]) (bad (.inr (.inl f2)))))
    rcases bool_cases ho "output" false with ⟨output, f3, v3⟩ | ⟨f3, v3⟩
    rotate_left
    · exact .inr (.inr (exn (e := .typeError) (by simp [historyRequest, va, v1, v2, v3]) (bad (.inr (.inr f3)))))
    exact .inl ⟨_, .tail n raw output ho ha f1 f2 f3, C45_tail M h c n raw output ho ha f1 f2 f3⟩
  by_cases e2 : a = lit "search"
  · subst e2
    have bad : strField c "pattern" "*" = none ∨ boolField c "raw" true = none ∨ boolField c "output" false = none ∨ intField c "n" 10 = none ∨
      boolField c "unique" false = none → HistBad c := fun h => .inr (.inr (.inr (.inl ⟨ha, h⟩)))
    rcases str_cases ho "pattern" "*" with ⟨p, f0, v0⟩ | ⟨f0, v0⟩
    rotate_left
    · exact .inr (.inr (exn (e := .typeError) (by simp [historyRequest, va, n3, v0]) (bad (.inl f0))))
    rcases bool_cases ho "raw" true with ⟨raw, f2, v2⟩ | ⟨f2, v2⟩
    rotate_left
    · exact .inr (.inr (exn (e := .typeError) (by simp [historyRequest, va, n3, v0, v2]) (bad (.inr (.inl f2)))))
    rcases bool_cases ho "output" false with ⟨output, f3, v3⟩ | ⟨f3, v3⟩
    rotate_left
    · exact .inr (.inr (exn (e := .typeError) (by simp [historyRequest, va, n3, v0, v2, v3]) (bad (.inr (.inr (.inl f3))))))
    rcases int_cases ho "n" 10 with ⟨n, f1, v1⟩ | ⟨f1, v1 | ⟨hw, s, v1⟩⟩
    rotate_left
    · exact .inr (.inr (exn (e := .typeError) (by simp [historyRequest, va, n3, v0, v2, v3, v1]) (bad (.inr (.inr (.inr (.inl f1)))))))
    · exact .inr (.inr (ubn (s := s) "n" (by simp) hw (by simp [historyRequest, va, n3, v0, v2, v3, v1]) (bad (.inr (.inr (.inr (.inl f1)))))))
    rcases bool_cases ho "unique" false with ⟨unique, f4, v4⟩ | ⟨f4, v4⟩
    rotate_left
    · exact .inr (.inr (exn (e := .typeError) (by simp [historyRequest, va, n3, v0, v2, v3, v1, v4]) (bad (.inr (.inr (.inr (.inr f4)))))))
    exact .inl ⟨_, .search p raw output n unique ho ha f0 f2 f3 f1 f4, C45_search M h c p n raw output unique ho ha f0 f1 f2 f3 f4⟩
  by_cases e3 : a = lit "range"
  · subst e3
    have bad : intField c "session" 0 = none ∨ intField c "start" 1 = none ∨ intField c "stop" 10 = none ∨ boolField c "raw" true = none ∨
      boolField c "output" false = none → HistBad c := fun h => .inr (.inr (.inr (.inr ⟨ha, h⟩)))
    rcases int_cases ho "session" 0 with ⟨se, f1, v1⟩ | ⟨f1, v1 | ⟨hw, s, v1⟩⟩
    rotate_left
    · exact .inr (.inr (exn (e := .typeError) (by simp [historyRequest, va, n5, n6, v1]) (bad (.inl f1))))
    · exact .inr (.inr (ubn (s := s) "session" (by simp) hw (by simp [historyRequest, va, n5, n6, v1]) (bad (.inl f1))))
    rcases int_cases ho "start" 1 with ⟨sta, f2, v2⟩ | ⟨f2, v2 | ⟨hw, s, v2⟩⟩
    rotate_left
    · exact .inr (.inr (exn (e := .typeError) (by simp [historyRequest, va, n5, n6, v1, v2]) (bad (.inr (.inl f2)))))
    · exact .inr (.inr (ubn (s := s) "start" (by simp) hw (by simp [historyRequest, va, n5, n6, v1, v2]) (bad (.inr (.inl f2)))))
    rcases int_cases ho "stop" 10 with ⟨sto, f3, v3⟩ | ⟨f3, v3 | ⟨hw, s, v3⟩⟩
    rotate_left
    · exact .inr (.inr (exn (e := .typeError) (by simp [historyRequest, va, n5, n6, v1, v2, v3]) (bad (.inr (.inr (.inl f3))))))
    · exact .inr (.inr (ubn (s := s) "stop" (by simp) hw (by simp [historyRequest, va, n5, n6, v1, v2, v3]) (bad (.inr (.inr (.inl f3))))))
    rcases bool_cases ho "raw" true with ⟨raw, f4, v4⟩ | ⟨f4, v4⟩
    rotate_left
    · exact .inr (.inr (exn (e := .typeError) (by simp [historyRequest, va, n5, n6, v1, v2, v3, v4]) (bad (.inr (.inr (.inr (.inl f4)))))))
    rcases bool_cases ho "output" false with ⟨output, f5, v5⟩ | ⟨f5, v5⟩
    rotate_left
    · exact .inr (.inr (exn (e := .typeError) (by simp [historyRequest, va, n5, n6, v1, v2, v3, v4, v5]) (bad (.inr (.inr (.inr (.inr f5)))))))
    exact .inl ⟨_, .range se sta sto raw output ho ha f1 f2 f3 f4 f5, C45_range M h c se sta sto raw output ho ha f1 f2 f3 f4 f5⟩
  · exact .inr (.inl ⟨⟨ho, a, ha, e1, e2, e3⟩, C45_other M h c a ho ha ⟨e1, e2, e3⟩⟩)

theorem asks_fits {c : Json} {Q : Query} (hQ : Asks c Q) (hn : ∀ n, intField c "n" 10 = some n → 0 ≤ n)
    (hs : ∀ s, intField c "start" 1 = some s → 0 ≤ s) : Q.Fits := by
  cases hQ with
  | tail n raw output f0 f1 f2 f3 f4 => exact ⟨intField_range (by decide) f2, hn n f2⟩
  | range a b c raw output f0 f1 f2 f3 f4 f5 f6 =>
    exact ⟨intField_range (by decide) f2, intField_range (by decide) f3, intField_range (by decide) f4, hs b f3⟩
  | search t raw output n u f0 f1 f2 f3 f4 f5 f6 => exact ⟨intField_range (by decide) f5, hn n f5⟩

theorem inMemory_tail (R : RegexLib) : (inMemory R).tail = getTail := rfl

theorem inMemory_range (R : RegexLib) : (inMemory R).range = getRange := rfl

theorem inMemory_search (R : RegexLib) : (inMemory R).search = search R := rfl

theorem ask_tail (R : RegexLib) (h : Hist) (n : Int) (r o : Bool) : Query.ask (inMemory R) h (.tail n r o) = getTail h n r o :=
  (show ∀ M : HistoryManager, Query.ask M h (.tail n r o) = M.tail h n r o from fun _ => rfl) (inMemory R) |>.trans
    (congrFun (congrFun (congrFun (congrFun (inMemory_tail R) h) n) r) o)

theorem ask_range (R : RegexLib) (h : Hist) (a b c : Int) (r o : Bool) :
    Query.ask (inMemory R) h (.range a b c r o) = getRange h a b c r o :=
  (show ∀ M : HistoryManager, Query.ask M h (.range a b c r o) = M.range h a b c r o from fun _ => rfl) (inMemory R) |>.trans
    (congrFun (congrFun (congrFun (congrFun (congrFun (congrFun (inMemory_range R) h) a) b) c) r) o)

theorem ask_search (R : RegexLib) (h : Hist) (p : Str) (r o : Bool) (n : Int) (u : Bool) :
    Query.ask (inMemory R) h (.search p r o n u) = search R h p r o n u :=
  (show ∀ M : HistoryManager, Query.ask M h (.search p r o n u) = M.search h p r o n u from fun _ => rfl) (inMemory R) |>.trans
    (congrFun (congrFun (congrFun (congrFun (congrFun (congrFun (inMemory_search R) h) p) r) o) n) u)

theorem sure_tail {h : Hist} (hh : HistOk h) (hl : (h.length : Int) ≤ intMax) {n : Int} (hn : 0 ≤ n) (r o : Bool) :
    (∀ s, getTail h n r o ≠ .ub s) ∧ getTail h n r o ≠ .hang := by
  refine ⟨fun s hu => ?_, (fine_tail hh .replace n r o).1⟩
  have := (C46_tail_ub h n r o hl).1 ⟨s, hu⟩
  omega

theorem sure_range {h : Hist} (hh : HistOk h) (hl : (h.length : Int) ≤ intMax) (a c : Int) {b : Int} (hb : 0 ≤ b) (r o : Bool) :
    (∀ s, getRange h a b c r o ≠ .ub s) ∧ getRange h a b c r o ≠ .hang := by
  refine ⟨fun s hu => ?_, (fine_range hh .replace a b c r o).1⟩
  have := (C46_range_ub h a b c r o hl).1 ⟨s, hu⟩
  omega

theorem sure_search {R : RegexLib} (hR : LawfulRegex R) {h : Hist} (hh : HistOk h) (hl : (h.length : Int) ≤ intMax) (p : Str) (r o : Bool)
    {n : Int} (hi : InInt n) (hn : 0 ≤ n) (u : Bool) :
    (∀ s, search R h p r o n u ≠ .ub s) ∧ search R h p r o n u ≠ .hang := by
  refine ⟨fun s hu => ?_, (fine_search hR hh .replace p r o n u).1⟩
  have := ((C46_search_ub R hR h p r o n u hl hi).1 ⟨s, hu⟩).1
  omega

theorem inMemory_secure {R : RegexLib} (hR : LawfulRegex R) : Secure (inMemory R) := by
  intro h Q hh hl hf
  cases Q with
  | tail n r o =>
    rw [ask_tail]
    exact sure_tail hh hl hf.2 r o
  | range a b c r o =>
    rw [ask_range]
    exact sure_range hh hl a c hf.2.2.2 r o
  | search p r o n u =>
    rw [ask_search]
    exact sure_search hR hh hl p r o hf.1 hf.2 u

theorem inMemory_dependable {R : RegexLib} (hR : LawfulRegex R) (eh : ErrH) : Dependable eh (inMemory R) := by
  intro h Q hh hl hf hp
  cases Q with
  | tail n r o =>
    rw [ask_tail]
    have hj := C41_tail h n r o hl hf.2
    exact ⟨_, hj, (fine_tail hh eh n r o).2 _ hj⟩
  | range a b c r o =>
    rw [ask_range]
    have h0 : 0 ≤ b := hf.2.2.2
    by_cases hr : c < b ∨ (h.length : Int) < b
    · obtain ⟨j, hj, _⟩ := C42_range_error h a b c r o hl hr
      exact ⟨j, hj, (fine_range hh eh a b c r o).2 _ hj⟩
    · have hj := C42_range h a b c r o hl h0 (by omega) (by omega)
      exact ⟨_, hj, (fine_range hh eh a b c r o).2 _ hj⟩
  | search p r o n u =>
    rw [ask_search]
    obtain ⟨_, _, _, _, hj⟩ := C43_search R hR h p r o n u hp.2.1 hp.2.2 hl hf.2 hf.1
    exact ⟨_, hj, (fine_search hR hh eh p r o n u).2 _ hj⟩

instance [hm : Stock env] : Reliable env where
  secure := by
    obtain ⟨R, hR, h⟩ := hm.memory
    rw [h]
    exact inMemory_secure hR
  dependable := by
    obtain ⟨R, hR, h⟩ := hm.memory
    rw [h]
    exact inMemory_dependable hR env.eh

/-- A harmless request neither leads to undefined behaviour nor waits for ever. -/
theorem reliable_sure [Steady env] {h : Hist} (hh : HistOk h) (hl : (h.length : Int) ≤ intMax) {c : Json} {ts : List Str}
    (hc : Harmless ts c .history) : (∀ s, historyRequest env.H h c ≠ .ub s) ∧ historyRequest env.H h c ≠ .hang := by
  rcases request_cases env.H h c with ⟨Q, hQ, hq⟩ | ⟨_, hq⟩ | ⟨_, ⟨e, hq⟩ | ⟨⟨k, hk, hw⟩, s, hq⟩⟩
  · rw [hq]
    exact Steady.secure h Q hh hl (asks_fits hQ hc.1 hc.2.1)
  · rw [hq]; simp
  · rw [hq]; simp
  · exact absurd hw (hc.2.2 k hk)

/-- A documented request is answered. -/
theorem reliable_answers [Reliable env] {h : Hist} (hh : HistOk h) (hl : (h.length : Int) ≤ intMax) {c : Json} {ts : List Str}
    (hp0 : Parsed c) (hd : Documented c .history) (hc : Harmless ts c .history) :
    ∃ j, historyRequest env.H h c = .ok j ∧ Printable env.eh j := by
  obtain ⟨ho, ⟨a, ha⟩, ⟨p, hp, hp1, hp2⟩, ⟨raw, hraw⟩, ⟨out, hout⟩, ⟨u, hu⟩, ⟨n, hn⟩, ⟨se, hse⟩, ⟨sta, hsta⟩, ⟨sto, hsto⟩⟩ := hd
  rcases request_cases env.H h c with ⟨Q, hQ, hq⟩ | ⟨_, hq⟩ | ⟨hb, _⟩
  · rw [hq]
    refine Reliable.dependable h Q hh hl (asks_fits hQ hc.1 hc.2.1) ?_
    cases hQ with
    | search t raw output n u f0 f1 f2 f3 f4 f5 f6 =>
      have hu8 := parsed_str hp0 (utf8_lit (by decide)) f2
      rw [hp] at f2
      cases f2
      exact ⟨hu8, hp1, hp2⟩
    | _ => trivial
  · exact ⟨_, hq, by decide, fun _ => .null⟩
  · unfold HistBad at hb
    simp [ho, ha, hp, hraw, hout, hu, hn, hse, hsta, hsto] at hb

end Xeus
