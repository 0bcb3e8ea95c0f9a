import Verif.Dap.BadFramingLemmas
import Verif.Dap.FramingProps
import Verif.Dap.Spec
import Verif.Dap.Sample

/-!
# Header parts of the debug adapter's messages that announce no length: property theorems

* C98: what the client makes of a length that is missing, too big or negative.
-/

namespace Xeus

open Xeus Spec K

/-- The bytes have arrived iff enough bytes have. -/
theorem arrived_iff {cs : List Str} {bytes rest : Str} (h : cs.flatten <+: bytes ++ rest) (j : Nat) :
    bytes <+: (cs.take j).flatten ↔ bytes.length ≤ (cs.take j).flatten.length := by
  refine ⟨fun h => h.length_le, fun hl => ?_⟩
  have hp : (cs.take j).flatten <+: bytes ++ rest :=
    List.IsPrefix.trans ⟨(cs.drop j).flatten, by rw [← List.flatten_append, List.take_append_drop]⟩ h
  exact List.prefix_of_prefix_length_le (List.prefix_append _ _) hp hl

theorem ends_iff {cs : List Str} {ms : List DapMsg} (k n : Nat) : EndsMsgFrom [] cs ms k n ↔ EndsMsg cs ms k n := by
  simp [EndsMsgFrom, EndsMsg]

/-- Reading messages, no chunk ending with one of them, and then a header part. -/
theorem handleTcp_head {ms : List DapMsg} (hms : ∀ m ∈ ms, m.Ok) {head field rest : Str} (hf : HasField head field) {cs : List Str}
    (h : cs.flatten <+: wireOfMsgs ms ++ (head ++ rest)) (hn : ∀ k n, ¬ EndsMsg cs ms k n) (q : List Str) :
    (¬ wireOfMsgs ms ++ head <+: cs.flatten ∧ handleTcp q cs = .blocked) ∨
    ∃ k, Arrives cs (wireOfMsgs ms ++ head) k ∧ ∃ (t : Str) (next : Nat → Read), handleTcp q cs =
      match stoull (field ++ 13 :: t) with
      | .ok size => if cs.flatten.length < (wireOfMsgs ms ++ head).length + size then .blocked else next size
      | .exc e => .thrown e (q ++ bodies ms) (cs.drop k)
      | _ => .blocked := by
  have hr : cs.flatten <+: (wireOfMsgs ms ++ head) ++ rest := by rwa [List.append_assoc]
  have hfind : findFrom ([] ++ []) dapHeader ([] : Str).length = none := by decide
  have htail := readLoop_tail ms hms (head ++ rest) (cs.flatten.length + 1) [] [] cs q (by simpa using h) (by simp)
  rw [hfind] at htail
  change _ ∨ (_ ∧ _ ∧ handleTcp q cs = .blocked) ∨ (_ ∧ ∃ past' cur' k f', _ ∧ _ ∧ _ ∧ _ ∧ _ ∧ handleTcp q cs = _) at htail
  rcases htail with ⟨k, n, h1, _⟩ | ⟨_, hlt, hb⟩ | ⟨_, past, cur, k, f, g1, g2, g3, g4, g5, g6⟩
  · exact absurd ((ends_iff k n).1 h1) (hn k n)
  · refine .inl ⟨fun hp => ?_, hb⟩
    have := hp.length_le
    simp only [List.length_append, List.nil_append] at this hlt
    omega
  · rw [List.nil_append] at g1 g2
    cases f with
    | zero => omega
    | succ f =>
      have hp : cur ++ (cs.drop k).flatten <+: head ++ rest := by
        rw [g1, List.prefix_append_right_inj] at h
        exact h
      have hi := readIter_head (next := readLoop f) (past := past) (q := q ++ bodies ms) hf hp
      simp only [readLoop] at g6
      rw [← g6] at hi
      cases ht : takeUntil (past.length + head.length) (past ++ cur) (cs.drop k) with
      | none =>
        rw [ht] at hi
        refine .inl ⟨fun hp => ?_, hi⟩
        have hl := takeUntil_none ht
        have := hp.length_le
        rw [g1] at this
        simp only [List.length_append] at this hl
        omega
      | some x =>
        obtain ⟨buf, cs'⟩ := x
        rw [ht] at hi
        obtain ⟨k', hk', hcs', hb, hl, hmin⟩ := takeUntil_some ht
        obtain ⟨t, hi⟩ := hi
        have hdrop : cs' = cs.drop (k + k') := by rw [hcs', List.drop_drop]
        have hlen : ∀ j, (cs.take (k + j)).flatten.length = (wireOfMsgs ms).length + (cur.length + ((cs.drop k).take j).flatten.length) := by
          intro j
          rw [List.take_add, List.flatten_append, List.length_append, g2, List.length_append]
          omega
        refine .inr ⟨k + k', ⟨?_, ?_, ?_⟩, t, ?_⟩
        · simp at hk'; omega
        · rw [arrived_iff hr, hlen, List.length_append]
          rw [hb] at hl
          simp only [List.length_append] at hl
          omega
        · intro j hj
          rw [arrived_iff hr, List.length_append]
          rcases Nat.lt_or_ge j k with hlt | hge
          · have := g4 j hlt
            rw [List.nil_append] at this
            omega
          · obtain ⟨i, rfl⟩ : ∃ i, j = k + i := ⟨j - k, by omega⟩
            have := hmin i (by omega)
            rw [hlen]
            simp only [List.length_append] at this
            omega
        · cases hst : stoull (field ++ 13 :: t) with
          | ok size =>
            rw [hst] at hi
            dsimp only at hi ⊢
            rw [awaitSize_eq hl] at hi
            refine ⟨fun _ => handleTcp q cs, ?_⟩
            split
            · next hlt =>
              rw [takeUntil_short] at hi
              · exact hi
              · have e : (buf ++ cs'.flatten).length = past.length + (cur.length + (cs.drop k).flatten.length) := by
                  rw [hb, hcs', List.append_assoc, ← List.flatten_append, List.take_append_drop]
                  simp only [List.length_append]
                  omega
                rw [e]
                rw [g1] at hlt
                simp only [List.length_append] at hlt
                omega
            · rfl
          | exc e => rw [hst, hdrop] at hi; exact ⟨fun _ => .blocked, hi⟩
          | ub w => rw [hst] at hi; exact ⟨fun _ => .blocked, hi⟩
          | hang => rw [hst] at hi; exact ⟨fun _ => .blocked, hi⟩

/-- A `k` for which the bytes arrive is unique. -/
theorem Spec.Arrives.unique {cs : List Str} {bytes : Str} {k k' : Nat} (h : Arrives cs bytes k) (h' : Arrives cs bytes k') : k = k' := by
  rcases Nat.lt_trichotomy k k' with hlt | rfl | hlt
  · exact absurd h.2.1 (h'.2.2 k hlt)
  · rfl
  · exact absurd h'.2.1 (h.2.2 k' hlt)

theorem Spec.Arrives.prefix {cs : List Str} {bytes : Str} {k : Nat} (h : Arrives cs bytes k) : bytes <+: cs.flatten :=
  h.2.1.trans ⟨(cs.drop k).flatten, by rw [← List.flatten_append, List.take_append_drop]⟩

/-! ## C98 -/

/-- **C98.** What the client reads before does not depend on the header part: if a chunk ends with a message, reading ends there. -/
theorem C98_before {ms : List DapMsg} (hms : ∀ m ∈ ms, m.Ok) {tail : Str} {cs : List Str}
    (h : cs.flatten <+: wireOfMsgs ms ++ tail) {k n : Nat} (he : EndsMsg cs ms k n) (hfirst : ∀ j < k, ∀ n', ¬ EndsMsg cs ms j n')
    (q : List Str) : handleTcp q cs = .got (q ++ bodies (ms.take n)) (cs.drop k) := by
  have hfind : findFrom ([] ++ []) dapHeader ([] : Str).length = none := by decide
  have htail := readLoop_tail ms hms tail (cs.flatten.length + 1) [] [] cs q (by simpa using h) (by simp)
  rw [hfind] at htail
  simp only [ends_iff] at htail
  rcases htail with ⟨k', n', h1, h2, h3⟩ | ⟨h1, _⟩ | ⟨h1, _⟩
  · have hk : k' = k := by
      rcases Nat.lt_trichotomy k' k with hlt | e | hlt
      · exact absurd h1 (hfirst k' hlt n')
      · exact e
      · exact absurd he (h2 k hlt n)
    subst hk
    rw [EndsMsg.unique hms he h1]
    exact h3
  · exact absurd he (h1 k n)
  · exact absurd he (h1 k n)

/-- **C98.** If what stands for the length is no number, the client fails with `invalid_argument` as soon as the header part has
arrived. -/
theorem C98_no_number {ms : List DapMsg} (hms : ∀ m ∈ ms, m.Ok) {head field rest : Str} (hf : HasField head field)
    (hno : NoNumber field) {cs : List Str} (h : cs.flatten <+: wireOfMsgs ms ++ (head ++ rest)) (hn : ∀ k n, ¬ EndsMsg cs ms k n)
    {k : Nat} (hk : Arrives cs (wireOfMsgs ms ++ head) k) (q : List Str) :
    handleTcp q cs = .thrown .invalidArgument (q ++ bodies ms) (cs.drop k) := by
  rcases handleTcp_head hms hf h hn q with ⟨h1, _⟩ | ⟨k', h1, t, next, h2⟩
  · exact absurd hk.prefix h1
  · cases hk.unique h1
    rw [h2, stoull_noNumber hno]

/-- **C98.** If the number does not fit in 64 bits, it fails with `out_of_range`. -/
theorem C98_too_big {ms : List DapMsg} (hms : ∀ m ∈ ms, m.Ok) {head field rest sign : Str} {N : Nat} (hf : HasField head field)
    (hno : Number field sign N) (hs : sign = [] ∨ sign = lit "+" ∨ sign = lit "-") (hN : 2 ^ 64 ≤ N)
    {cs : List Str} (h : cs.flatten <+: wireOfMsgs ms ++ (head ++ rest)) (hn : ∀ k n, ¬ EndsMsg cs ms k n)
    {k : Nat} (hk : Arrives cs (wireOfMsgs ms ++ head) k) (q : List Str) :
    handleTcp q cs = .thrown .outOfRange (q ++ bodies ms) (cs.drop k) := by
  rcases handleTcp_head hms hf h hn q with ⟨h1, _⟩ | ⟨k', h1, t, next, h2⟩
  · exact absurd hk.prefix h1
  · cases hk.unique h1
    rw [h2, stoull_number hno hs, if_pos (by unfold two64; omega)]

/-- **C98.** If the number is negative, the client waits for nearly 2^64 bytes. -/
theorem C98_negative {ms : List DapMsg} (hms : ∀ m ∈ ms, m.Ok) {head field rest : Str} {N : Nat} (hf : HasField head field)
    (hno : Number field (lit "-") N) (h0 : 0 < N) (hN : N < 2 ^ 64) {cs : List Str}
    (h : cs.flatten <+: wireOfMsgs ms ++ (head ++ rest)) (hn : ∀ k n, ¬ EndsMsg cs ms k n)
    (hl : cs.flatten.length < (wireOfMsgs ms ++ head).length + (2 ^ 64 - N)) (q : List Str) : handleTcp q cs = .blocked := by
  rcases handleTcp_head hms hf h hn q with ⟨_, h1⟩ | ⟨k', h1, t, next, h2⟩
  · exact h1
  · have h64 : two64 = 2 ^ 64 := by decide
    rw [h2, stoull_number hno (by simp), if_neg (by omega)]
    simp only [if_true]
    rw [Nat.mod_eq_of_lt (by omega), h64, if_pos hl]

/-- **C98.** While the header part has not arrived entirely, the client waits. -/
theorem C98_waits {ms : List DapMsg} (hms : ∀ m ∈ ms, m.Ok) {head field rest : Str} (hf : HasField head field) {cs : List Str}
    (h : cs.flatten <+: wireOfMsgs ms ++ (head ++ rest)) (hn : ∀ k n, ¬ EndsMsg cs ms k n)
    (hw : ¬ wireOfMsgs ms ++ head <+: cs.flatten) (q : List Str) : handleTcp q cs = .blocked := by
  rcases handleTcp_head hms hf h hn q with ⟨_, h1⟩ | ⟨k', h1, t, next, h2⟩
  · exact h1
  · exact absurd h1.prefix hw

/-- **C98.** In the loop of the client such an exception ends its thread; the messages received before, in the same read, stay in the
queue and are never passed on. -/
theorem C98_ends {σ : Type} {cl : Client σ} {s : Dap σ} {e : Exc} {q cs : List Str} (hstop : s.requestStop = false)
    (hr : handleTcp s.queue s.tcpIn = .thrown e q cs) :
    ∃ s', Iter cl s (.exc e) s' ∧ s'.out = s.out ∧ s'.routed = s.routed ∧ s'.queue = q := by
  have hne : s.tcpIn ≠ [] := by
    intro h
    rw [h] at hr
    have : handleTcp s.queue [] = .blocked := by
      unfold handleTcp
      simp only [List.flatten_nil, List.length_nil, readLoop]
      rfl
    rw [this] at hr
    cases hr
  refine ⟨{ s with queue := q, tcpIn := cs, rcvd := s.rcvd ++ q.drop s.queue.length }, ?_, rfl, rfl, rfl⟩
  refine .fail (hdr := false) (ctl := false) (tcp := true) hstop ⟨rfl, by simp, by simp, fun _ => hne⟩ ?_ (by simp)
  show (readMessages).run s = _
  simp only [readMessages, run_lift, hr]

section Examples

theorem field_of {head field : Str} (pre : Str) (h : head = pre ++ lit "Content-Length: " ++ field ++ lit "\r\n\r\n")
    (h1 : findAux (lit "Content-Length: ") (pre ++ lit "Content-Length: ") 0 = some pre.length)
    (h2 : findAux (lit "\r\n\r\n") (field ++ lit "\r\n\r\n") 0 = some field.length) : HasField head field :=
  ⟨pre, h, first_of_find h1, first_of_find h2⟩

/-- A message and a header part without number, in three chunks. -/
def badHead : Str := lit "X: 1\r\nContent-Length: many\r\n\r\n"
def badChunks : List Str := [lit "Content-Le", lit "ngth: 2\r\n\r\n{}X: 1\r\nCont", lit "ent-Length: many\r\n\r\n{}", lit "more"]

theorem badHead_field : HasField badHead (lit "many") := field_of (lit "X: 1\r\n") (by decide +kernel) (by decide +kernel) (by decide +kernel)

theorem badChunks_ends : ∀ k n, ¬ EndsMsg badChunks [plainMsg (lit "{}")] k n := by
  rintro k n ⟨h1, h2, h3, h4⟩
  have hn : n = 1 := by simp at h2; omega
  subst hn
  have hk : k ≤ 4 := h3
  revert h4
  have : ∀ k < 5, (badChunks.take k).flatten ≠ wireOfMsgs ([plainMsg (lit "{}")].take 1) := by decide +kernel
  exact this k (by omega)

theorem badChunks_prefix : badChunks.flatten <+: wireOfMsgs [plainMsg (lit "{}")] ++ (badHead ++ lit "{}more") :=
  ⟨[], by decide +kernel⟩

theorem badChunks_arrives : Arrives badChunks (wireOfMsgs [plainMsg (lit "{}")] ++ badHead) 3 := by
  refine ⟨by decide, ?_, ?_⟩
  · rw [← List.isPrefixOf_iff_prefix]; decide +kernel
  · have : ∀ j < 3, (wireOfMsgs [plainMsg (lit "{}")] ++ badHead).isPrefixOf (badChunks.take j).flatten = false := by decide +kernel
    intro j hj hp
    rw [← List.isPrefixOf_iff_prefix, this j hj] at hp
    cases hp

theorem oneMsg_ok : ∀ m ∈ [plainMsg (lit "{}")], m.Ok := by
  intro m hm
  cases List.mem_singleton.1 hm
  exact plainMsg_ok (by decide +kernel)

example : handleTcp [] badChunks = .thrown .invalidArgument [lit "{}"] [lit "more"] :=
  C98_no_number oneMsg_ok badHead_field
    ⟨[], 109, lit "any", by decide +kernel, by simp, by unfold White; decide, .inl (by decide +kernel)⟩ badChunks_prefix badChunks_ends
    badChunks_arrives []

example : handleTcp [] (badChunks.take 2) = .blocked := by
  refine C98_waits (rest := []) oneMsg_ok badHead_field ?_ ?_ ?_ []
  · rw [← List.isPrefixOf_iff_prefix]; decide +kernel
  · rintro k n ⟨h1, h2, h3, h4⟩
    refine badChunks_ends k n ⟨h1, h2, ?_, ?_⟩
    · have : k ≤ 2 := h3
      show k ≤ 4
      omega
    · have : k ≤ 2 := h3
      rw [← h4, List.take_take, Nat.min_eq_left this]
  · rw [← List.isPrefixOf_iff_prefix]; decide +kernel

/-- The chunk that ends with the message is read by itself. -/
example : handleTcp [] [wireOfMsgs [plainMsg (lit "{}")], badHead] = .got [lit "{}"] [badHead] :=
  C98_before (tail := badHead) oneMsg_ok ⟨[], by decide +kernel⟩ (k := 1) (n := 1) ⟨by decide, by decide, by decide, by decide +kernel⟩
    (by
      rintro j hj n ⟨h1, h2, _, h4⟩
      have : j = 0 := by omega
      subst this
      have hn : n = 1 := by simp at h2; omega
      subst hn
      exact absurd h4 (by decide +kernel)) []

def bigHead : Str := lit "Content-Length: 18446744073709551616\r\n\r\n"

theorem noMsgs_ends (cs : List Str) : ∀ k n, ¬ EndsMsg cs [] k n := by
  rintro k n ⟨h1, h2, _⟩
  simp at h2; omega

theorem arrives_one (head rest : Str) (h : head ≠ []) : Arrives [head ++ rest] (wireOfMsgs [] ++ head) 1 := by
  refine ⟨by simp, by simp [wireOfMsgs], fun j hj hp => ?_⟩
  have : j = 0 := by omega
  subst this
  simp [wireOfMsgs] at hp
  exact h hp

example : handleTcp [] [bigHead ++ lit "{}"] = .thrown .outOfRange [] [] :=
  C98_too_big (ms := []) (rest := lit "{}") (head := bigHead) (field := lit "18446744073709551616") (sign := []) (N := 2 ^ 64) (by simp)
    (field_of [] (by decide +kernel) (by decide +kernel) (by decide +kernel))
    ⟨[], lit "18446744073709551616", [], by simp, by simp, by decide +kernel, by decide +kernel, by simp [StartsWithDigit], by decide +kernel⟩
    (.inl rfl) (by decide +kernel) ⟨[], by simp [wireOfMsgs]⟩ (noMsgs_ends _) (arrives_one _ _ (by decide +kernel)) []

def minusHead : Str := lit "Content-Length: -2\r\n\r\n"

example : handleTcp [] [minusHead ++ lit "{}"] = .blocked :=
  C98_negative (ms := []) (rest := lit "{}") (head := minusHead) (field := lit "-2") (N := 2) (by simp)
    (field_of [] (by decide +kernel) (by decide +kernel) (by decide +kernel))
    ⟨[], lit "2", [], by decide +kernel, by simp, by decide +kernel, by decide +kernel, by simp [StartsWithDigit], by decide +kernel⟩
    (by decide) (by decide +kernel) ⟨[], by simp [wireOfMsgs]⟩ (noMsgs_ends _) (by decide +kernel) []

/-- **C98, finding.** If the length is missing altogether, the client takes it from the body of the message. -/
theorem C98_blank_witness : handleTcp [] [lit "Content-Length: \r\n\r\n3 a"] = .got [lit "3 a"] [] := by decide +kernel

/-- A client that reads the chunks above. -/
example (cl : Client Unit) : ∃ s', Iter cl { Dap.initial () badChunks [] [] with out := [.reply (lit "ACK")] } (.exc .invalidArgument) s' ∧
    s'.out = [.reply (lit "ACK")] ∧ s'.routed = [] ∧ s'.queue = [lit "{}"] :=
  C98_ends rfl (show handleTcp [] badChunks = .thrown .invalidArgument [lit "{}"] [lit "more"] by decide +kernel)

end Examples

end Xeus
