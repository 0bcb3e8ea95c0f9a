import Verif.Dap.FramingLemmas
import Verif.Dap.BadFramingSpec

/-!
# Header parts of the debug adapter's messages that announce no length: lemmas

No property statements here.
-/

namespace Xeus

open Xeus Spec

/-! ## Numbers -/

theorem isSpace_iff (c : UInt8) : isSpace c = true ↔ White c := by
  have h : ∀ n : Fin 256, isSpace ⟨⟨n⟩⟩ = decide ((⟨⟨n⟩⟩ : UInt8) = 32 ∨ (⟨⟨n⟩⟩ : UInt8) = 9 ∨ (⟨⟨n⟩⟩ : UInt8) = 10 ∨
      (⟨⟨n⟩⟩ : UInt8) = 11 ∨ (⟨⟨n⟩⟩ : UInt8) = 12 ∨ (⟨⟨n⟩⟩ : UInt8) = 13) := by decide +kernel
  have := h c.toBitVec.toFin
  rw [show (⟨⟨c.toBitVec.toFin⟩⟩ : UInt8) = c from rfl] at this
  rw [this, decide_eq_true_eq]
  rfl

theorem skip_white {ws : Str} (h : ∀ c ∈ ws, White c) {c : UInt8} (hc : ¬ White c) (t : Str) :
    (ws ++ c :: t).dropWhile isSpace = c :: t := by
  induction ws with
  | nil =>
    have : isSpace c = false := by rw [← Bool.not_eq_true, isSpace_iff]; exact hc
    simp [this]
  | cons w ws ih =>
    simp only [List.cons_append, List.dropWhile_cons, (isSpace_iff w).2 (h w (by simp)), if_true]
    exact ih fun c hc => h c (by simp [hc])

theorem digit_not_white {c : UInt8} (h : isDigit c = true) : ¬ White c := by
  rw [← isSpace_iff, (digit_not_space h).1]; simp

/-- Digits followed by something else. -/
theorem digits_then {ds post t : Str} (h : ∀ c ∈ ds, isDigit c = true) (hp : ¬ StartsWithDigit post) {c : UInt8} (hc : isDigit c = false) :
    (ds ++ post ++ c :: t).takeWhile isDigit = ds := by
  cases post with
  | nil => simpa using takeWhile_digits h hc t
  | cons x xs =>
    have hx : isDigit x = false := by simpa [StartsWithDigit] using hp
    simpa using takeWhile_digits h hx (xs ++ c :: t)

theorem stoull_number {field sign : Str} {n : Nat} (h : Number field sign n) (hs : sign = [] ∨ sign = lit "+" ∨ sign = lit "-") (t : Str) :
    stoull (field ++ 13 :: t) =
      if two64 ≤ n then .exc .outOfRange else .ok (if sign = lit "-" then (two64 - n) % two64 else n) := by
  obtain ⟨ws, ds, post, rfl, hw, hne, hd, hp, rfl⟩ := h
  have hdt : (ds ++ (post ++ 13 :: t)).takeWhile isDigit = ds := by
    have := digits_then (t := t) hd hp (c := 13) (by decide)
    rwa [List.append_assoc] at this
  have key : ∀ neg, stoullDigits neg (ds ++ (post ++ 13 :: t)) =
      if two64 ≤ digitsVal 0 ds then .exc .outOfRange
      else .ok (if neg = true then (two64 - digitsVal 0 ds) % two64 else digitsVal 0 ds) := by
    intro neg
    simp only [stoullDigits, hdt, hne, if_false]
  obtain ⟨d, ds', hds⟩ : ∃ d ds', ds = d :: ds' := by
    cases ds with
    | nil => exact absurd rfl hne
    | cons d ds => exact ⟨d, ds, rfl⟩
  have hdd : isDigit d = true := hd d (by simp [hds])
  rcases hs with rfl | rfl | rfl
  · have e : ws ++ [] ++ ds ++ post ++ 13 :: t = ws ++ d :: (ds' ++ (post ++ 13 :: t)) := by simp [hds]
    have h2 := digit_not_space hdd
    have hkf := key false
    rw [hds] at hkf
    simp only [List.cons_append] at hkf
    simp only [stoull, e, skip_white hw (digit_not_white hdd), h2.2.1, h2.2.2, if_false, hkf, ← hds, show ([] : Str) ≠ lit "-" by decide]
    simp
  · have e : ws ++ lit "+" ++ ds ++ post ++ 13 :: t = ws ++ 43 :: (ds ++ (post ++ 13 :: t)) := by
      simp [show lit "+" = [43] by decide]
    have h1 : ¬ White 43 := by unfold White; decide
    simp only [stoull, e, skip_white hw h1, key false, show lit "+" ≠ lit "-" by decide]
    simp
  · have e : ws ++ lit "-" ++ ds ++ post ++ 13 :: t = ws ++ 45 :: (ds ++ (post ++ 13 :: t)) := by
      simp [show lit "-" = [45] by decide]
    have h1 : ¬ White 45 := by unfold White; decide
    simp only [stoull, e, skip_white hw h1, key true]
    simp

theorem stoull_noNumber {field : Str} (h : NoNumber field) (t : Str) : stoull (field ++ 13 :: t) = .exc .invalidArgument := by
  obtain ⟨ws, c, post, rfl, hw, hc, h⟩ := h
  have e : ws ++ c :: post ++ 13 :: t = ws ++ c :: (post ++ 13 :: t) := by simp
  have none : ∀ neg (s : Str), ¬ StartsWithDigit s → stoullDigits neg s = .exc .invalidArgument := by
    intro neg s hs
    cases s with
    | nil => rfl
    | cons x xs =>
      have hx : isDigit x = false := by simpa [StartsWithDigit] using hs
      simp [stoullDigits, hx]
  have next : ¬ StartsWithDigit post → ¬ StartsWithDigit (post ++ 13 :: t) := by
    intro h
    cases post with
    | nil => simp [StartsWithDigit]; decide
    | cons x xs => exact h
  rcases h with ⟨h1, h2, h3⟩ | ⟨h1, h2⟩
  · simp only [stoull, e, skip_white hw hc, h2, h3, if_false]
    exact none _ _ (by simp [StartsWithDigit, h1])
  · rcases h1 with rfl | rfl
    · simp only [stoull, e, skip_white hw hc]
      exact none _ _ (next h2)
    · simp only [stoull, e, skip_white hw hc]
      exact none _ _ (next h2)

/-! ## A header part -/

theorem readIter_head {next : Option Nat → Nat → Str → List Str → List Str → Read}
    {head field rest past cur : Str} {cs q : List Str} (hf : HasField head field) (h : cur ++ cs.flatten <+: head ++ rest) :
    match takeUntil (past.length + head.length) (past ++ cur) cs with
    | none => readIter next (findFrom (past ++ cur) dapHeader past.length) past.length (past ++ cur) cs q = .blocked
    | some (buf, cs') => ∃ t, readIter next (findFrom (past ++ cur) dapHeader past.length) past.length (past ++ cur) cs q =
        match stoull (field ++ 13 :: t) with
        | .ok size =>
          match awaitSize (past.length + head.length) size buf cs' with
          | none => .blocked
          | some (buf, cs) =>
            if buf.length - (past.length + head.length) = size then .got (q ++ [buf.drop (past.length + head.length)]) cs
            else next (findFrom buf dapHeader (past.length + head.length + size)) (past.length + head.length + size) buf cs
              (q ++ [substr buf (past.length + head.length) size])
        | .exc e => .thrown e q cs'
        | _ => .blocked := by
  obtain ⟨pre, hhead, hpre, hsep⟩ := hf
  have hH : lit "Content-Length: " = dapHeader := rfl
  have hS : lit "\r\n\r\n" = dapSeparator := rfl
  rw [hH, hS] at hhead
  rw [hH] at hpre
  rw [hS] at hsep
  have hlen : head.length = pre.length + 16 + field.length + 4 := by
    rw [hhead]; simp only [List.length_append, dapHeader_length, dapSeparator_length]
  have h1 : cur ++ cs.flatten <+: pre ++ dapHeader ++ (field ++ dapSeparator ++ rest) := by
    rw [hhead] at h; simpa [List.append_assoc] using h
  unfold readIter
  rw [awaitFind_eq (by decide) hpre h1, dapHeader_length]
  rw [← takeUntil_comp (a := past.length + pre.length + 16) (b := past.length + head.length) (by omega)]
  cases ht1 : takeUntil (past.length + pre.length + 16) (past ++ cur) cs with
  | none => simp only [Option.map_none, Option.bind_none]
  | some x1 =>
    obtain ⟨b1, cs1⟩ := x1
    simp only [Option.map_some, Option.bind_some]
    obtain ⟨k1, hk1, hcs1, hb1, hl1, _⟩ := takeUntil_some ht1
    have hb1' : b1 = past ++ (cur ++ (cs.take k1).flatten) := by rw [hb1, List.append_assoc]
    have hpfx1 : cur ++ (cs.take k1).flatten <+: pre ++ dapHeader ++ (field ++ dapSeparator ++ rest) := by
      refine List.IsPrefix.trans ?_ h1
      rw [List.prefix_append_right_inj]
      have := List.take_append_drop k1 cs
      exact ⟨(cs.drop k1).flatten, by rw [← List.flatten_append, this]⟩
    obtain ⟨cur2, hcur2⟩ : ∃ cur2, cur ++ (cs.take k1).flatten = pre ++ dapHeader ++ cur2 := by
      have : pre ++ dapHeader <+: cur ++ (cs.take k1).flatten := by
        refine List.prefix_of_prefix_length_le (List.prefix_append _ _) hpfx1 ?_
        rw [hb1'] at hl1
        simp only [List.length_append, dapHeader_length] at hl1 ⊢
        omega
      obtain ⟨t, ht⟩ := this
      exact ⟨t, ht.symm⟩
    have hb1'' : b1 = (past ++ pre ++ dapHeader) ++ cur2 := by rw [hb1', hcur2]; simp [List.append_assoc]
    have hp16 : past.length + pre.length + 16 = (past ++ pre ++ dapHeader).length := by
      simp only [List.length_append, dapHeader_length]
    have h2 : cur2 ++ cs1.flatten <+: field ++ dapSeparator ++ rest := by
      have : cur ++ cs.flatten = pre ++ dapHeader ++ (cur2 ++ cs1.flatten) := by
        rw [hcs1, ← List.append_assoc, ← hcur2, List.append_assoc, ← List.flatten_append, List.take_append_drop]
      rw [this, List.prefix_append_right_inj] at h1
      exact h1
    have hmp : past.length + pre.length + 16 + field.length + 4 = past.length + head.length := by omega
    rw [hb1'', hp16, awaitFind_eq (by decide) hsep h2, ← hb1'', ← hp16, dapSeparator_length, hmp]
    cases ht2 : takeUntil (past.length + head.length) b1 cs1 with
    | none => simp only [Option.map_none]
    | some x2 =>
      obtain ⟨b2, cs2⟩ := x2
      simp only [Option.map_some]
      obtain ⟨k2, hk2, hcs2, hb2, hl2, _⟩ := takeUntil_some ht2
      have hb2' : b2 = (past ++ pre ++ dapHeader) ++ (cur2 ++ (cs1.take k2).flatten) := by
        rw [hb2, hb1'', List.append_assoc]
      have hpfx2 : cur2 ++ (cs1.take k2).flatten <+: field ++ dapSeparator ++ rest := by
        refine List.IsPrefix.trans ?_ h2
        rw [List.prefix_append_right_inj]
        exact ⟨(cs1.drop k2).flatten, by rw [← List.flatten_append, List.take_append_drop]⟩
      obtain ⟨cur3, hcur3⟩ : ∃ cur3, cur2 ++ (cs1.take k2).flatten = field ++ dapSeparator ++ cur3 := by
        have : field ++ dapSeparator <+: cur2 ++ (cs1.take k2).flatten := by
          refine List.prefix_of_prefix_length_le (List.prefix_append _ _) hpfx2 ?_
          rw [hb2'] at hl2
          simp only [List.length_append, dapHeader_length, dapSeparator_length] at hl2 ⊢
          omega
        obtain ⟨t, ht⟩ := this
        exact ⟨t, ht.symm⟩
      have hb2'' : b2 = (past ++ pre ++ dapHeader) ++ (field ++ dapSeparator ++ cur3) := by rw [hb2', hcur3]
      have hsub : ∃ t, substr b2 (past.length + pre.length + 16) (past.length + pre.length + 16 + field.length) = field ++ 13 :: t := by
        obtain ⟨t0, ht0⟩ : ∃ t0, dapSeparator ++ cur3 = 13 :: t0 := ⟨_, by rw [dapSeparator_cons]; rfl⟩
        refine ⟨t0.take (past.length + pre.length + 16 + field.length - field.length - 1), ?_⟩
        unfold substr
        rw [hb2'', hp16, List.drop_left]
        have : field ++ dapSeparator ++ cur3 = field ++ 13 :: t0 := by
          rw [← ht0]; simp [List.append_assoc]
        rw [this, List.take_append, List.take_of_length_le (by omega)]
        congr 1
        have hpos : (past ++ pre ++ dapHeader).length + field.length - field.length =
            ((past ++ pre ++ dapHeader).length + field.length - field.length - 1) + 1 := by
          simp only [List.length_append, dapHeader_length]; omega
        rw [hpos, List.take_succ_cons]
        rfl
      obtain ⟨t, ht⟩ := hsub
      refine ⟨t, ?_⟩
      rw [ht, hmp]
      cases stoull (field ++ 13 :: t) <;> rfl

/-! ## Messages before it -/

/-- Reading messages and then something else. -/
theorem readLoop_tail (ms : List DapMsg) (hms : ∀ m ∈ ms, m.Ok) (tail : Str) (f : Nat) (past cur : Str) (cs q : List Str)
    (h : cur ++ cs.flatten <+: wireOfMsgs ms ++ tail) (hf : (cur ++ cs.flatten).length < f) :
    (∃ k n, EndsMsgFrom cur cs ms k n ∧ (∀ j < k, ∀ n', ¬ EndsMsgFrom cur cs ms j n') ∧
      readLoop f (findFrom (past ++ cur) dapHeader past.length) past.length (past ++ cur) cs q =
        .got (q ++ bodies (ms.take n)) (cs.drop k)) ∨
    ((∀ k n, ¬ EndsMsgFrom cur cs ms k n) ∧ (cur ++ cs.flatten).length < (wireOfMsgs ms).length ∧
      readLoop f (findFrom (past ++ cur) dapHeader past.length) past.length (past ++ cur) cs q = .blocked) ∨
    ((∀ k n, ¬ EndsMsgFrom cur cs ms k n) ∧ ∃ past' cur' k f', cur ++ cs.flatten = wireOfMsgs ms ++ (cur' ++ (cs.drop k).flatten) ∧
      cur ++ (cs.take k).flatten = wireOfMsgs ms ++ cur' ∧ k ≤ cs.length ∧
      (∀ j < k, (cur ++ (cs.take j).flatten).length < (wireOfMsgs ms).length) ∧
      (cur' ++ (cs.drop k).flatten).length < f' ∧
      readLoop f (findFrom (past ++ cur) dapHeader past.length) past.length (past ++ cur) cs q =
        readLoop f' (findFrom (past' ++ cur') dapHeader past'.length) past'.length (past' ++ cur') (cs.drop k) (q ++ bodies ms)) := by
  induction ms generalizing f past cur cs q with
  | nil =>
    right; right
    refine ⟨?_, past, cur, 0, f, rfl, by simp [wireOfMsgs], by omega, by simp, hf, by simp [bodies]⟩
    rintro k n ⟨h1, h2, _⟩
    simp at h2; omega
  | cons m ms ih =>
    have hm := hms m (by simp)
    have hms' : ∀ m ∈ ms, m.Ok := fun m hm => hms m (by simp [hm])
    cases f with
    | zero => omega
    | succ f =>
      simp only [readLoop]
      rw [wireOfMsgs_cons, List.append_assoc (m.head ++ m.body)] at h
      rw [readIter_msg hm h]
      cases ht : takeUntil (past.length + (m.head ++ m.body).length) (past ++ cur) cs with
      | none =>
        have hlt := takeUntil_none ht
        right; left
        refine ⟨?_, ?_, rfl⟩
        · rintro k n ⟨hn, hn', hk, he⟩
          have hl : (m.head ++ m.body).length ≤ (wireOfMsgs ((m :: ms).take n)).length := by
            cases n with
            | zero => omega
            | succ n =>
              rw [List.take_succ_cons, wireOfMsgs_cons, List.length_append (as := m.head ++ m.body)]; omega
          rw [← he] at hl
          have : (cs.take k).flatten.length ≤ cs.flatten.length := by
            conv => rhs; rw [← List.take_append_drop k cs, List.flatten_append, List.length_append]
            omega
          simp only [List.length_append] at hl hlt this
          omega
        · rw [wireOfMsgs_cons]
          simp only [List.length_append] at hlt ⊢
          omega
      | some x =>
        obtain ⟨b, cs'⟩ := x
        obtain ⟨k, hk, hcs', hb, hl, hmin⟩ := takeUntil_some ht
        have hb' : b = past ++ (cur ++ (cs.take k).flatten) := by rw [hb, List.append_assoc]
        have hpfx : cur ++ (cs.take k).flatten <+: m.head ++ m.body ++ (wireOfMsgs ms ++ tail) := by
          refine List.IsPrefix.trans ?_ h
          rw [List.prefix_append_right_inj]
          exact ⟨(cs.drop k).flatten, by rw [← List.flatten_append, List.take_append_drop]⟩
        obtain ⟨cur', hcur'⟩ : ∃ cur', cur ++ (cs.take k).flatten = m.head ++ m.body ++ cur' := by
          have : m.head ++ m.body <+: cur ++ (cs.take k).flatten := by
            refine List.prefix_of_prefix_length_le (List.prefix_append _ _) hpfx ?_
            rw [hb'] at hl
            simp only [List.length_append] at hl ⊢
            omega
          obtain ⟨t, ht⟩ := this
          exact ⟨t, ht.symm⟩
        have hshort : ∀ j < k, (cur ++ (cs.take j).flatten).length < (m.head ++ m.body).length := by
          intro j hj
          have h1 := hmin j hj
          rw [List.append_assoc, List.length_append] at h1
          omega
        have hbefore : ∀ j < k, ∀ n', ¬ EndsMsgFrom cur cs (m :: ms) j n' := by
          rintro j hj n' ⟨hn, hn', _, he⟩
          have h1 := hshort j hj
          rw [he] at h1
          cases n' with
          | zero => omega
          | succ n' =>
            rw [List.take_succ_cons, wireOfMsgs_cons, List.length_append (as := m.head ++ m.body)] at h1
            omega
        dsimp only
        by_cases he : cur' = []
        · subst he
          left
          refine ⟨k, 1, ⟨by omega, by simp, hk, ?_⟩, hbefore, ?_⟩
          · rw [hcur']; simp [wireOfMsgs]
          · rw [if_pos (by rw [hb', hcur']; simp)]
            rw [hcs']; simp [bodies]
        · have hpos : 0 < cur'.length := List.length_pos_iff.2 he
          rw [if_neg (by rw [hb', hcur']; simp only [List.length_append]; omega)]
          have hb'' : b = (past ++ (m.head ++ m.body)) ++ cur' := by rw [hb', hcur']; simp [List.append_assoc]
          have hrest : cur ++ cs.flatten = m.head ++ m.body ++ (cur' ++ (cs.drop k).flatten) := by
            rw [← List.append_assoc, ← hcur', List.append_assoc, ← List.flatten_append, List.take_append_drop]
          have h' : cur' ++ (cs.drop k).flatten <+: wireOfMsgs ms ++ tail := by
            rw [hrest, List.prefix_append_right_inj] at h
            exact h
          have hf' : (cur' ++ (cs.drop k).flatten).length < f := by
            rw [hrest] at hf
            have := msgOk_pos hm
            simp only [List.length_append] at hf this ⊢
            omega
          have hpl : past.length + (m.head ++ m.body).length = (past ++ (m.head ++ m.body)).length := by
            simp only [List.length_append]
          have hshift : ∀ j n, EndsMsgFrom cur' (cs.drop k) ms j n → EndsMsgFrom cur cs (m :: ms) (k + j) (n + 1) := by
            rintro j n ⟨h1, h2, h3, h4⟩
            refine ⟨by omega, by simp; omega, by simp at h3; omega, ?_⟩
            rw [List.take_succ_cons, wireOfMsgs_cons, ← h4, List.take_add, List.flatten_append, ← List.append_assoc,
              hcur', List.append_assoc]
          have hback : ∀ j n, EndsMsgFrom cur cs (m :: ms) j n →
              k ≤ j ∧ ∃ n', n = n' + 1 ∧ EndsMsgFrom cur' (cs.drop k) ms (j - k) n' := by
            rintro j n hj
            have hkj : k ≤ j := by
              rcases Nat.lt_or_ge j k with hlt | hge
              · exact absurd hj (hbefore j hlt n)
              · exact hge
            refine ⟨hkj, ?_⟩
            obtain ⟨h1, h2, h3, h4⟩ := hj
            obtain ⟨d, rfl⟩ : ∃ d, j = k + d := ⟨j - k, by omega⟩
            cases n with
            | zero => omega
            | succ n =>
              rw [List.take_succ_cons, wireOfMsgs_cons, List.take_add, List.flatten_append, ← List.append_assoc, hcur',
                List.append_assoc] at h4
              have h5 := List.append_cancel_left h4
              refine ⟨n, rfl, ?_, by simpa using h2, by simp; omega, by rw [Nat.add_sub_cancel_left]; exact h5⟩
              cases n with
              | zero =>
                simp [wireOfMsgs] at h5
                exact absurd h5.1 he
              | succ n => omega
          rw [hb'', hpl, hcs']
          rcases ih hms' f (past ++ (m.head ++ m.body)) cur' (cs.drop k) (q ++ [m.body]) h' hf' with
            ⟨k', n, h1, h2, h3⟩ | ⟨h1, h2, h3⟩ | ⟨h1, past', cur'', k', f', g1, g2, g3, g4, g5, g6⟩
          · left
            refine ⟨k + k', n + 1, hshift _ _ h1, ?_, ?_⟩
            · intro j hj n' hn'
              obtain ⟨hkj, n'', rfl, h4⟩ := hback _ _ hn'
              exact h2 (j - k) (by omega) _ h4
            · rw [h3]; simp [bodies, List.drop_drop]
          · right; left
            refine ⟨?_, ?_, h3⟩
            · intro j n hjn
              obtain ⟨_, n', _, h4⟩ := hback _ _ hjn
              exact h1 _ _ h4
            · rw [hrest, wireOfMsgs_cons, List.length_append, List.length_append (as := m.head ++ m.body)]
              omega
          · right; right
            refine ⟨?_, past', cur'', k + k', f', ?_, ?_, ?_, ?_, ?_, ?_⟩
            · intro j n hjn
              obtain ⟨_, n', _, h4⟩ := hback _ _ hjn
              exact h1 _ _ h4
            · rw [hrest, g1, wireOfMsgs_cons, List.drop_drop]; simp [List.append_assoc]
            · rw [List.take_add, List.flatten_append, ← List.append_assoc, hcur', List.append_assoc, g2, wireOfMsgs_cons]
              simp [List.append_assoc]
            · simp at g3; omega
            · intro j hj
              rw [wireOfMsgs_cons, List.length_append (as := m.head ++ m.body)]
              rcases Nat.lt_or_ge j k with hlt | hge
              · have := hshort j hlt
                omega
              · obtain ⟨d, rfl⟩ : ∃ d, j = k + d := ⟨j - k, by omega⟩
                have := g4 d (by omega)
                rw [List.take_add, List.flatten_append, ← List.append_assoc, hcur', List.append_assoc, List.length_append]
                omega
            · rw [← List.drop_drop]; exact g5
            · rw [g6, List.drop_drop]; simp [bodies]

end Xeus
