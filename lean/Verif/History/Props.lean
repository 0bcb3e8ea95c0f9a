import Verif.History.Lemmas
import Verif.Fields

/-!
# Properties C41–C46: the input history
-/

namespace Xeus

open Spec

/-- A sample history used in the examples. -/
def sampleHist : Hist :=
  [⟨lit "0", lit "1", lit "x = 1", []⟩, ⟨lit "0", lit "2", lit "print(x)", []⟩,
   ⟨lit "0", lit "2", lit "print(x)", []⟩, ⟨lit "0", lit "3", lit "y = x", []⟩]

/-! ## C41 -/

/-- C41: a tail query with `n ≥ 0` lists exactly the last `min n size` entries in chronological order. -/
theorem C41_tail (h : Hist) (n : Int) (raw output : Bool) (hl : (h.length : Int) ≤ intMax) (hn : 0 ≤ n) :
    getTail h n raw output = .ok (okReply ((lastN n.toNat h).map (columns output))) := by
  unfold getTail
  rw [histSize_eq hl]
  have hp : nextPos h.length (min n h.length) = .ok (min n.toNat h.length) := by
    rw [nextPos_ok (by omega)]
    congr 1; omega
  simp only [hp, Res.bind_ok, Res.pure_def, histReply_eq, foldl_cons_map, List.append_nil]
  rw [← List.map_reverse, lastN_reverse, lastN_min, projEntry_fun]

example : getTail sampleHist 2 true false = .ok (okReply
    [[lit "0", lit "2", lit "print(x)"], [lit "0", lit "3", lit "y = x"]]) :=
  C41_tail sampleHist 2 true false (by decide) (by decide)

/-- C41: after any sequence of stores, a tail query lists the last `n` stored inputs with the session and
the line number as decimal texts. -/
theorem C41_stored (ins : List (Int × Int × Str)) (n : Int) (raw : Bool)
    (hl : (ins.length : Int) ≤ intMax) (hn : 0 ≤ n) :
    getTail (ins.foldl (fun h e => storeInputs h e.1 e.2.1 e.2.2 []) []) n raw false =
      .ok (okReply ((lastN n.toNat ins).map fun e =>
        [lit (toString e.1), lit (toString e.2.1), e.2.2])) := by
  have hf : ∀ (l : List (Int × Int × Str)) (h : Hist),
      l.foldl (fun h e => storeInputs h e.1 e.2.1 e.2.2 []) h =
      h ++ l.map fun e => ⟨intToString e.1, intToString e.2.1, e.2.2, []⟩ := by
    intro l
    induction l with
    | nil => simp
    | cons x l ih => intro h; rw [List.foldl_cons, ih]; simp [storeInputs]
  rw [hf]
  rw [C41_tail _ _ _ _ (by simpa using hl) hn]
  simp only [List.nil_append, lastN, List.length_map, ← List.map_drop, List.map_map]
  congr 2
  apply List.map_congr_left
  intro e _
  simp [columns, intToString_eq]

example : getTail ([(0, 1, lit "a"), (0, -12, lit "b")].foldl
    (fun h (e : Int × Int × Str) => storeInputs h e.1 e.2.1 e.2.2 []) []) 1 true false =
    .ok (okReply [[lit "0", lit "-12", lit "b"]]) := by decide

/-! ## C42 -/

/-- C42: a range query with `0 ≤ start ≤ stop` and `start ≤ size` lists exactly the entries at positions
`start ≤ i < min stop size`, in order. -/
theorem C42_range (h : Hist) (session start stop : Int) (raw output : Bool)
    (hl : (h.length : Int) ≤ intMax) (h0 : 0 ≤ start) (hs : start ≤ stop) (hz : start ≤ h.length) :
    getRange h session start stop raw output =
      .ok (okReply (((h.take stop.toNat).drop start.toNat).map (columns output))) := by
  unfold getRange
  rw [histSize_eq hl, if_neg (by omega)]
  have hc : intSub (min stop h.length) start = .ok (min stop h.length - start) := by
    rw [intSub, if_pos]; unfold InInt intMin intMax at *; omega
  have ha : intAdd start (min stop h.length - start) = .ok (min stop h.length) := by
    rw [intAdd, if_pos]
    · congr 1; omega
    · unfold InInt intMin intMax at *; omega
  have hk : start + (min stop h.length - start) = min stop h.length := by omega
  have hn : nextPos h.length (min stop h.length) = .ok (min stop.toNat h.length) := by
    rw [nextPos_ok (by omega)]; congr 1; omega
  have hd : ((h.drop start.toNat).take (min stop.toNat h.length - start.toNat)) =
      (h.take stop.toNat).drop start.toNat := by
    rw [List.drop_take]
    by_cases hc : stop.toNat ≤ h.length
    · rw [Nat.min_eq_left hc]
    · rw [Nat.min_eq_right (by omega), List.take_of_length_le (by simp), List.take_of_length_le (by simp; omega)]
  simp only [hc, Res.bind_ok, nextPos_ok (show 0 ≤ start ∧ start ≤ (h.length : Int) by omega), ha, hk, hn,
    Res.pure_def, histReply_eq, hd]
  cases output <;> simp only [projEntry_fun, if_true, Bool.false_eq_true, if_false]

example : getRange sampleHist 0 1 3 true false = .ok (okReply
    [[lit "0", lit "2", lit "print(x)"], [lit "0", lit "2", lit "print(x)"]]) :=
  C42_range sampleHist 0 1 3 true false (by decide) (by decide) (by decide) (by decide)

/-- C42: when `start` exceeds `stop` or the number of entries, the reply is an error. -/
theorem C42_range_error (h : Hist) (session start stop : Int) (raw output : Bool)
    (hl : (h.length : Int) ≤ intMax) (hs : stop < start ∨ (h.length : Int) < start) :
    ∃ j, getRange h session start stop raw output = .ok j ∧ IsErrorReply j := by
  unfold getRange
  rw [histSize_eq hl, if_pos (by omega)]
  exact ⟨_, rfl, by unfold IsErrorReply; decide⟩

example : ∃ j, getRange sampleHist 0 3 2 true false = .ok j ∧ IsErrorReply j :=
  C42_range_error sampleHist 0 3 2 true false (by decide) (by decide)

/-! ## C43, C44 -/

/-- C43 and C44: a search with a backslash-free pattern lists, in chronological order, the last `n` entries
whose input (up to its first NUL byte) matches the pattern as a glob somewhere; with `unique`, runs of
adjacent equal rows are collapsed first. -/
theorem C43_search (R : RegexLib) (hR : LawfulRegex R) (h : Hist) (p : Str) (raw output : Bool) (n : Int)
    (unique : Bool) (hp : 92 ∉ p) (hp0 : 0 ∉ p) (hl : (h.length : Int) ≤ intMax) (hn : 0 ≤ n)
    (hi : InInt n) :
    ∃ (sel : HEntry → Bool) (rows : List (List Str)),
      (∀ e, sel e = true ↔ GlobIn p (e.input.takeWhile (· ≠ 0))) ∧
      (if unique then Collapsed ((h.filter sel).map (columns output)) rows
        else rows = (h.filter sel).map (columns output)) ∧
      search R h p raw output n unique = .ok (okReply (lastN n.toNat rows)) := by
  have hv : ∀ t ∈ p.map tokOf, t.Valid := by
    intro t ht
    obtain ⟨c, hc, rfl⟩ := List.mem_map.1 ht
    exact tok_valid (fun e => hp (e ▸ hc)) (fun e => hp0 (e ▸ hc))
  obtain ⟨f, hf, hm⟩ := hR.compile _ hv
  refine ⟨fun e => f (cStr e.input),
    if unique then stdUnique ((h.filter fun e => f (cStr e.input)).map (columns output))
      else (h.filter fun e => f (cStr e.input)).map (columns output), ?_, ?_, ?_⟩
  · intro e
    rw [hm]
    rw [cStr_eq]
    simp only [GlobIn, rxMatch_glob]
  · cases unique
    · simp
    · simpa using stdUnique_collapsed _
  · unfold search
    simp only [translate p hp, hf, Res.bind_ok]
    have hle : (((h.filter fun e => f (cStr e.input)).map (projEntry output)).length : Int) ≤ intMax := by
      have := List.length_filter_le (fun e => f (cStr e.input)) h
      simp only [List.length_map]
      omega
    rw [cleanHistory_ok _ n unique hle hn hi]
    simp only [Res.bind_ok, Res.pure_def, histReply_eq]
    rw [projEntry_fun]

example : ∃ (sel : HEntry → Bool) (rows : List (List Str)),
      (∀ e, sel e = true ↔ GlobIn (lit "p*(?)") (e.input.takeWhile (· ≠ 0))) ∧
      (if true then Collapsed ((sampleHist.filter sel).map (columns false)) rows
        else rows = (sampleHist.filter sel).map (columns false)) ∧
      search stdRegex sampleHist (lit "p*(?)") true false 5 true = .ok (okReply (lastN 5 rows)) :=
  C43_search stdRegex stdRegex_lawful sampleHist (lit "p*(?)") true false 5 true (by decide) (by decide)
    (by decide) (by decide) (by decide)

/-- C43: the collapsed list is determined by the list. -/
theorem C43_collapse_unique {α : Type} {l r₁ r₂ : List α} (h₁ : Collapsed l r₁) (h₂ : Collapsed l r₂) :
    r₁ = r₂ := collapsed_unique h₁ h₂

example : Collapsed [1, 1, 2, 1] [1, 2, 1] :=
  .same (.diff (by decide) (.diff (by decide) .single))

/-- C43: whatever the pattern, a search either fails with a regular expression error (leaving the history
alone) or selects entries by a predicate of their input only, keeps the order, and lists the last `n`. -/
theorem C43_search_any (R : RegexLib) (hR : LawfulRegex R) (h : Hist) (p : Str) (raw output : Bool) (n : Int)
    (unique : Bool) (hl : (h.length : Int) ≤ intMax) (hn : 0 ≤ n) (hi : InInt n) :
    search R h p raw output n unique = .exc .regexError ∨
    ∃ (sel : Str → Bool) (rows : List (List Str)),
      (if unique then Collapsed ((h.filter fun e => sel (e.input.takeWhile (· ≠ 0))).map (columns output)) rows
        else rows = (h.filter fun e => sel (e.input.takeWhile (· ≠ 0))).map (columns output)) ∧
      search R h p raw output n unique = .ok (okReply (lastN n.toNat rows)) := by
  rcases hR.total (globToRegex (sanitize p)) with ⟨f, hf⟩ | hf
  · right
    refine ⟨f, if unique then stdUnique ((h.filter fun e => f (e.input.takeWhile (· ≠ 0))).map (columns output))
      else (h.filter fun e => f (e.input.takeWhile (· ≠ 0))).map (columns output), ?_, ?_⟩
    · cases unique
      · simp
      · simpa using stdUnique_collapsed _
    · unfold search
      simp only [hf, Res.bind_ok]
      have hle : (((h.filter fun e => f (cStr e.input)).map (projEntry output)).length : Int) ≤ intMax := by
        have := List.length_filter_le (fun e => f (cStr e.input)) h
        simp only [List.length_map]
        omega
      rw [cleanHistory_ok _ n unique hle hn hi]
      simp only [Res.bind_ok, Res.pure_def, histReply_eq, cStr_eq]
      rw [projEntry_fun]
  · left
    simp [search, hf]

example : search stdRegex sampleHist (lit "x\\") true false 5 true = .exc .regexError := by decide

/-- C44: an entry is selected iff some part of its input, up to the first NUL byte, matches the glob. -/
theorem C44_glob (R : RegexLib) (hR : LawfulRegex R) (e : HEntry) (p : Str) (raw output : Bool) (n : Int)
    (unique : Bool) (hp : 92 ∉ p) (hp0 : 0 ∉ p) (hn : 1 ≤ n) (hi : InInt n) :
    (search R [e] p raw output n unique = .ok (okReply [columns output e]) ∧
      GlobIn p (e.input.takeWhile (· ≠ 0))) ∨
    (search R [e] p raw output n unique = .ok (okReply []) ∧
      ¬ GlobIn p (e.input.takeWhile (· ≠ 0))) := by
  obtain ⟨sel, rows, h1, h2, h3⟩ := C43_search R hR [e] p raw output n unique hp hp0 (by simp [intMax])
    (by omega) hi
  by_cases hs : sel e = true
  · left
    have hrows : rows = [columns output e] := by
      cases unique
      · simpa [List.filter, hs] using h2
      · simp only [List.filter, hs, if_true, List.map_cons, List.map_nil] at h2
        cases h2; rfl
    refine ⟨?_, (h1 e).1 hs⟩
    rw [h3, hrows]
    simp only [lastN, List.length_singleton]
    rw [show 1 - n.toNat = 0 by omega, List.drop_zero]
  · right
    have hrows : rows = [] := by
      cases unique
      · simpa [List.filter, hs] using h2
      · simp only [List.filter, hs, if_true, List.map_nil] at h2
        cases h2; rfl
    refine ⟨?_, fun hg => hs ((h1 e).2 hg)⟩
    rw [h3, hrows]; simp [lastN]

example : search stdRegex [⟨lit "0", lit "1", lit "a.b[c]", []⟩] (lit ".?[") true false 1 false =
    .ok (okReply [[lit "0", lit "1", lit "a.b[c]"]]) := by decide

example : search stdRegex [⟨lit "0", lit "1", lit "axb[c]", []⟩] (lit ".?[") true false 1 false =
    .ok (okReply []) := by decide

/-- C44: a pattern whose only backslash is its last character makes the search fail. -/
theorem C44_trailing_backslash (R : RegexLib) (hR : LawfulRegex R) (h : Hist) (p : Str) (raw output : Bool)
    (n : Int) (unique : Bool) (hp : 92 ∉ p) (hp0 : 0 ∉ p) :
    search R h (p ++ [92]) raw output n unique = .exc .regexError := by
  have hv : ∀ t ∈ p.map tokOf, t.Valid := by
    intro t ht
    obtain ⟨c, hc, rfl⟩ := List.mem_map.1 ht
    exact tok_valid (fun e => hp (e ▸ hc)) (fun e => hp0 (e ▸ hc))
  have ht : globToRegex (sanitize (p ++ [92])) = (p.map tokOf).flatMap Tok.text ++ [92] := by
    have : sanitize (p ++ [92]) = sanitize p ++ [92] := by simp +decide [sanitize]
    rw [this, globToRegex_append, translate p hp]
    rfl
  simp [search, ht, hR.trailing _ hv]

example : search stdRegex sampleHist (lit "x*" ++ [92]) true false 3 false = .exc .regexError :=
  C44_trailing_backslash stdRegex stdRegex_lawful sampleHist (lit "x*") true false 3 false (by decide) (by decide)

/-! ## C45 -/

/-- C45: a request without access type, or with "tail", is a tail query with its fields and defaults, whatever the history manager. -/
theorem C45_tail (M : HistoryManager) (h : Hist) (c : Json) (n : Int) (raw output : Bool)
    (ho : c.isObj = true) (ha : strField c "hist_access_type" "tail" = some (lit "tail"))
    (hn : intField c "n" 10 = some n) (hr : boolField c "raw" true = some raw)
    (hout : boolField c "output" false = some output) :
    historyRequest M h c = M.tail h n raw output := by
  unfold historyRequest
  rw [strField_value ho ha]
  simp only [Res.bind_ok, if_true, intField_value ho hn, boolField_value ho hr, boolField_value ho hout]
  have e1 : ¬ lit "tail" = lit "search" := by decide
  have e2 : ¬ lit "tail" = lit "range" := by decide
  simp only [e1, e2, if_false]
  cases M.tail h n raw output <;> rfl

example : historyRequest (inMemory stdRegex) sampleHist (.obj [(lit "n", .int 1)]) =
    .ok (okReply [[lit "0", lit "3", lit "y = x"]]) := by decide

/-- C45: access type "search". -/
theorem C45_search (M : HistoryManager) (h : Hist) (c : Json) (p : Str) (n : Int) (raw output unique : Bool)
    (ho : c.isObj = true) (ha : strField c "hist_access_type" "tail" = some (lit "search"))
    (hp : strField c "pattern" "*" = some p)
    (hn : intField c "n" 10 = some n) (hr : boolField c "raw" true = some raw)
    (hout : boolField c "output" false = some output) (hu : boolField c "unique" false = some unique) :
    historyRequest M h c = M.search h p raw output n unique := by
  unfold historyRequest
  rw [strField_value ho ha]
  have e1 : ¬ lit "search" = lit "tail" := by decide
  have e2 : ¬ lit "search" = lit "range" := by decide
  simp only [Res.bind_ok, e1, e2, if_false, if_true, strField_value ho hp, intField_value ho hn,
    boolField_value ho hr, boolField_value ho hout, boolField_value ho hu]
  cases M.search h p raw output n unique <;> rfl

example : historyRequest (inMemory stdRegex) sampleHist
    (.obj [(lit "hist_access_type", .str (lit "search")), (lit "pattern", .str (lit "y*"))]) =
    .ok (okReply [[lit "0", lit "3", lit "y = x"]]) := by decide

/-- C45: access type "range". -/
theorem C45_range (M : HistoryManager) (h : Hist) (c : Json) (session start stop : Int) (raw output : Bool)
    (ho : c.isObj = true) (ha : strField c "hist_access_type" "tail" = some (lit "range"))
    (hs : intField c "session" 0 = some session) (hst : intField c "start" 1 = some start)
    (hsp : intField c "stop" 10 = some stop) (hr : boolField c "raw" true = some raw)
    (hout : boolField c "output" false = some output) :
    historyRequest M h c = M.range h session start stop raw output := by
  unfold historyRequest
  rw [strField_value ho ha]
  have e1 : ¬ lit "range" = lit "tail" := by decide
  have e2 : ¬ lit "range" = lit "search" := by decide
  simp only [Res.bind_ok, e1, e2, if_false, if_true, intField_value ho hs, intField_value ho hst,
    intField_value ho hsp, boolField_value ho hr, boolField_value ho hout]

example : historyRequest (inMemory stdRegex) sampleHist
    (.obj [(lit "hist_access_type", .str (lit "range")), (lit "stop", .int 2)]) =
    .ok (okReply [[lit "0", lit "2", lit "print(x)"]]) := by decide

/-- C45: any other access type gives a null reply. -/
theorem C45_other (M : HistoryManager) (h : Hist) (c : Json) (a : Str)
    (ho : c.isObj = true) (ha : strField c "hist_access_type" "tail" = some a)
    (hne : a ≠ lit "tail" ∧ a ≠ lit "search" ∧ a ≠ lit "range") :
    historyRequest M h c = .ok .null := by
  unfold historyRequest
  rw [strField_value ho ha]
  simp [hne.1, hne.2.1, hne.2.2]

example : historyRequest (inMemory stdRegex) sampleHist (.obj [(lit "hist_access_type", .str (lit "x"))]) = .ok .null :=
  C45_other (inMemory stdRegex) sampleHist (.obj [(lit "hist_access_type", .str (lit "x"))]) (lit "x") rfl (by decide)
    (by decide)

/-- C45: contents that are not objects, or whose access type is not a string, are refused. -/
theorem C45_refused (M : HistoryManager) (h : Hist) (c : Json)
    (hb : c.isObj = false ∨ strField c "hist_access_type" "tail" = none) :
    historyRequest M h c = .exc .typeError := by
  have : c.value (lit "hist_access_type") Json.getStr (lit "tail") = .exc .typeError := by
    cases c with
    | obj kvs =>
      rcases hb with hb | hb
      · simp [Json.isObj] at hb
      · simp only [strField, Json.find?] at hb
        simp only [Json.value]
        cases hl : Json.lookup (lit "hist_access_type") kvs with
        | none => simp [hl] at hb
        | some v => cases v <;> simp [hl] at hb ⊢ <;> rfl
    | _ => rfl
  unfold historyRequest
  rw [this]
  rfl

example : historyRequest (inMemory stdRegex) sampleHist (.arr []) = .exc .typeError :=
  C45_refused (inMemory stdRegex) sampleHist (.arr []) (.inl rfl)

/-- C45: the `raw` flag never changes the result, and `output` only adds the fourth column. -/
theorem C45_flags (R : RegexLib) (h : Hist) (n session start stop : Int) (p : Str) (raw raw' output unique : Bool)
    (e : HEntry) :
    getTail h n raw output = getTail h n raw' output ∧
    getRange h session start stop raw output = getRange h session start stop raw' output ∧
    search R h p raw output n unique = search R h p raw' output n unique ∧
    columns true e = columns false e ++ [e.output] :=
  ⟨rfl, rfl, rfl, rfl⟩

example : getTail sampleHist 1 true true =
    .ok (okReply [[lit "0", lit "3", lit "y = x", []]]) := by decide

/-! ## C46 -/

/-- C46: a tail query runs into undefined behaviour exactly for negative `n`. -/
theorem C46_tail_ub (h : Hist) (n : Int) (raw output : Bool) (hl : (h.length : Int) ≤ intMax) :
    (∃ w, getTail h n raw output = .ub w) ↔ n < 0 := by
  constructor
  · rintro ⟨w, hw⟩
    refine Classical.byContradiction fun hc => ?_
    rw [C41_tail h n raw output hl (by omega)] at hw
    simp at hw
  · intro hn
    refine ⟨"std::next outside of the history list", ?_⟩
    unfold getTail
    simp only [histSize_eq hl]
    rw [nextPos_ub (by omega)]
    rfl

example : ∃ w, getTail sampleHist (-1) true false = .ub w :=
  (C46_tail_ub sampleHist (-1) true false (by decide)).2 (by decide)

/-- C46: a range query runs into undefined behaviour exactly when `start` is negative and at most `stop`. -/
theorem C46_range_ub (h : Hist) (session start stop : Int) (raw output : Bool)
    (hl : (h.length : Int) ≤ intMax) :
    (∃ w, getRange h session start stop raw output = .ub w) ↔ start < 0 ∧ start ≤ stop := by
  constructor
  · rintro ⟨w, hw⟩
    refine Classical.byContradiction fun hc => ?_
    by_cases hs : stop < start ∨ (h.length : Int) < start
    · obtain ⟨j, hj, _⟩ := C42_range_error h session start stop raw output hl hs
      rw [hj] at hw; simp at hw
    · rw [C42_range h session start stop raw output hl (by omega) (by omega) (by omega)] at hw
      simp at hw
  · rintro ⟨h0, hs⟩
    unfold getRange
    rw [histSize_eq hl, if_neg (by omega)]
    unfold intSub
    split
    · simp only [Res.bind_ok]
      rw [nextPos_ub (by omega)]
      exact ⟨_, rfl⟩
    · exact ⟨_, rfl⟩

example : ∃ w, getRange sampleHist 0 (-1) 2 true false = .ub w :=
  (C46_range_ub sampleHist 0 (-1) 2 true false (by decide)).2 (by decide)

/-- C46: a search runs into undefined behaviour exactly when its pattern compiles and `n` is negative. -/
theorem C46_search_ub (R : RegexLib) (hR : LawfulRegex R) (h : Hist) (p : Str) (raw output : Bool) (n : Int)
    (unique : Bool) (hl : (h.length : Int) ≤ intMax) (hi : InInt n) :
    (∃ w, search R h p raw output n unique = .ub w) ↔
      n < 0 ∧ search R h p raw output n unique ≠ .exc .regexError := by
  constructor
  · rintro ⟨w, hw⟩
    refine ⟨?_, by rw [hw]; simp⟩
    refine Classical.byContradiction fun hc => ?_
    rcases C43_search_any R hR h p raw output n unique hl (by omega) hi with h1 | ⟨_, _, _, h1⟩
    · rw [h1] at hw; simp at hw
    · rw [h1] at hw; simp at hw
  · rintro ⟨hn, hne⟩
    rcases hR.total (globToRegex (sanitize p)) with ⟨f, hf⟩ | hf
    · have hle : (((h.filter fun e => f (cStr e.input)).map (projEntry output)).length : Int) ≤ intMax := by
        have := List.length_filter_le (fun e => f (cStr e.input)) h
        simp only [List.length_map]
        omega
      obtain ⟨w, hw⟩ := cleanHistory_neg _ n unique hle hn
      refine ⟨w, ?_⟩
      unfold search
      simp only [hf, Res.bind_ok]
      rw [hw]; rfl
    · exact absurd (by simp [search, hf]) hne

example : ∃ w, search stdRegex sampleHist (lit "x") true false (-1) false = .ub w :=
  (C46_search_ub stdRegex stdRegex_lawful sampleHist (lit "x") true false (-1) false (by decide)
    (by decide)).2 (by decide)

/-- C46: whatever the request a client sends, undefined behaviour comes only from a negative number or from a double whose
integral part is no `int`. -/
theorem C46_request_ub (R : RegexLib) (hR : LawfulRegex R) (h : Hist) (c : Json)
    (hl : (h.length : Int) ≤ intMax) (w : String) (hu : historyRequest (inMemory R) h c = .ub w) :
    (∃ n, intField c "n" 10 = some n ∧ n < 0) ∨ (∃ s, intField c "start" 1 = some s ∧ s < 0) ∨
      ∃ k ∈ ["n", "session", "start", "stop"], Wild c k := by
  unfold historyRequest at hu
  simp only [inMemory] at hu
  rcases value_str_cases c (lit "hist_access_type") (lit "tail") with ⟨a, ha⟩ | ha
  rotate_left
  · simp [ha] at hu
  simp only [ha, Res.bind_ok] at hu
  by_cases h1 : a = lit "tail"
  · have e1 : ¬ lit "tail" = lit "search" := by decide
    have e2 : ¬ lit "tail" = lit "range" := by decide
    simp only [h1, e1, e2, if_true, if_false] at hu
    rcases value_int_cases c "n" 10 with ⟨n, hn⟩ | hn | ⟨_, hw, _⟩
    rotate_left
    · simp [hn] at hu
    · exact .inr (.inr ⟨"n", by simp, hw⟩)
    rcases value_bool_cases c (lit "raw") true with ⟨r, hr⟩ | hr
    rotate_left
    · simp [hn, hr] at hu
    rcases value_bool_cases c (lit "output") false with ⟨o, ho⟩ | ho
    rotate_left
    · simp [hn, hr, ho] at hu
    simp only [hn, hr, ho, Res.bind_ok] at hu
    refine .inl ⟨n, (value_int_ok.1 hn).2, (C46_tail_ub h n r o hl).1 ⟨w, ?_⟩⟩
    cases hg : getTail h n r o <;> simp [hg] at hu ⊢
    exact hu
  · by_cases h2 : a = lit "search"
    · have e2 : ¬ lit "search" = lit "range" := by decide
      have e1 : ¬ lit "search" = lit "tail" := by decide
      simp only [h2, e1, e2, if_true, if_false, Res.bind_ok] at hu
      rcases value_str_cases c (lit "pattern") (lit "*") with ⟨p, hp⟩ | hp
      rotate_left
      · simp [hp] at hu
      rcases value_bool_cases c (lit "raw") true with ⟨r, hr⟩ | hr
      rotate_left
      · simp [hp, hr] at hu
      rcases value_bool_cases c (lit "output") false with ⟨o, ho⟩ | ho
      rotate_left
      · simp [hp, hr, ho] at hu
      rcases value_int_cases c "n" 10 with ⟨n, hn⟩ | hn | ⟨_, hw, _⟩
      rotate_left
      · simp [hp, hr, ho, hn] at hu
      · exact .inr (.inr ⟨"n", by simp, hw⟩)
      rcases value_bool_cases c (lit "unique") false with ⟨u, hq⟩ | hq
      rotate_left
      · simp [hp, hr, ho, hn, hq] at hu
      simp only [hp, hn, hr, ho, hq, Res.bind_ok] at hu
      have hnf := (value_int_ok.1 hn).2
      refine .inl ⟨n, hnf, ((C46_search_ub R hR h p r o n u hl (intField_range (by decide) hnf)).1
        ⟨w, ?_⟩).1⟩
      cases hg : search R h p r o n u <;> simp [hg] at hu ⊢
      exact hu
    · by_cases h3 : a = lit "range"
      · have e2 : ¬ lit "range" = lit "search" := by decide
        have e1 : ¬ lit "range" = lit "tail" := by decide
        simp only [h3, e1, e2, if_true, if_false, Res.bind_ok] at hu
        rcases value_int_cases c "session" 0 with ⟨se, hse⟩ | hse | ⟨_, hw, _⟩
        rotate_left
        · simp [hse] at hu
        · exact .inr (.inr ⟨"session", by simp, hw⟩)
        rcases value_int_cases c "start" 1 with ⟨st, hst⟩ | hst | ⟨_, hw, _⟩
        rotate_left
        · simp [hse, hst] at hu
        · exact .inr (.inr ⟨"start", by simp, hw⟩)
        rcases value_int_cases c "stop" 10 with ⟨sp, hsp⟩ | hsp | ⟨_, hw, _⟩
        rotate_left
        · simp [hse, hst, hsp] at hu
        · exact .inr (.inr ⟨"stop", by simp, hw⟩)
        rcases value_bool_cases c (lit "raw") true with ⟨r, hr⟩ | hr
        rotate_left
        · simp [hse, hst, hsp, hr] at hu
        rcases value_bool_cases c (lit "output") false with ⟨o, ho⟩ | ho
        rotate_left
        · simp [hse, hst, hsp, hr, ho] at hu
        simp only [hse, hst, hsp, hr, ho, Res.bind_ok] at hu
        exact .inr (.inl ⟨st, (value_int_ok.1 hst).2, ((C46_range_ub h se st sp r o hl).1 ⟨w, hu⟩).1⟩)
      · simp [h1, h2, h3] at hu

example : historyRequest (inMemory stdRegex) sampleHist (.obj [(lit "n", .int (-1))]) =
    .ub "std::next outside of the history list" := by decide

/-- C46: a request with a double that is no `int` where it is looked at is undefined. -/
theorem C46_request_wild (M : HistoryManager) (h : Hist) (c : Json) (ho : c.isObj = true) :
    (strField c "hist_access_type" "tail" = some (lit "tail") → Wild c "n" → ∃ w, historyRequest M h c = .ub w) ∧
    (strField c "hist_access_type" "tail" = some (lit "search") → (strField c "pattern" "*").isSome = true →
      (boolField c "raw" true).isSome = true → (boolField c "output" false).isSome = true → Wild c "n" →
      ∃ w, historyRequest M h c = .ub w) ∧
    (strField c "hist_access_type" "tail" = some (lit "range") → Wild c "session" → ∃ w, historyRequest M h c = .ub w) ∧
    (strField c "hist_access_type" "tail" = some (lit "range") → (intField c "session" 0).isSome = true →
      Wild c "start" → ∃ w, historyRequest M h c = .ub w) ∧
    (strField c "hist_access_type" "tail" = some (lit "range") → (intField c "session" 0).isSome = true →
      (intField c "start" 1).isSome = true → Wild c "stop" → ∃ w, historyRequest M h c = .ub w) := by
  have e1 : ¬ lit "tail" = lit "search" := by decide
  have e2 : ¬ lit "tail" = lit "range" := by decide
  have e3 : ¬ lit "search" = lit "tail" := by decide
  have e4 : ¬ lit "search" = lit "range" := by decide
  have e5 : ¬ lit "range" = lit "tail" := by decide
  have e6 : ¬ lit "range" = lit "search" := by decide
  simp only [Option.isSome_iff_exists]
  refine ⟨fun ha hw => ?_, fun ha ⟨_, h1⟩ ⟨_, h2⟩ ⟨_, h3⟩ hw => ?_, fun ha hw => ?_, fun ha ⟨_, h1⟩ hw => ?_,
    fun ha ⟨_, h1⟩ ⟨_, h2⟩ hw => ?_⟩ <;> refine ⟨"conversion of a double that does not fit", ?_⟩ <;> unfold historyRequest
  · simp only [strField_value ho ha, Res.bind_ok, e1, e2, if_true, if_false, (intField_wild ho hw).1]; rfl
  · simp only [strField_value ho ha, Res.bind_ok, e3, e4, if_true, if_false, (intField_wild ho hw).1, strField_value ho h1,
      boolField_value ho h2, boolField_value ho h3]; rfl
  · simp only [strField_value ho ha, Res.bind_ok, e5, e6, if_true, if_false, (intField_wild ho hw).1]; rfl
  · simp only [strField_value ho ha, Res.bind_ok, e5, e6, if_true, if_false, (intField_wild ho hw).1, intField_value ho h1]; rfl
  · simp only [strField_value ho ha, Res.bind_ok, e5, e6, if_true, if_false, (intField_wild ho hw).1, intField_value ho h1,
      intField_value ho h2]; rfl

/-- The double 1e10 is no `int`; 2.75 is the `int` 2. -/
example : Wild (.obj [(lit "n", .float 0x4202A05F20000000)]) "n" ∧
    intField (.obj [(lit "n", .float 0x4006000000000000)]) "n" 10 = some 2 := by decide +kernel

example : historyRequest (inMemory stdRegex) sampleHist (.obj [(lit "n", .float 0x4202A05F20000000)]) =
    .ub "conversion of a double that does not fit" := by decide +kernel

end Xeus
