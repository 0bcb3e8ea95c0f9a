import Verif.Dap.Framing
import Verif.Dap.FramingSpec

/-! # Framing: lemmas (no property statements here) -/

namespace Xeus

open Spec

/-! ## Searching -/

theorem findAux_short {pat s : Str} (h : s.length < pat.length) (i : Nat) : findAux pat s i = none := by
  induction s generalizing i with
  | nil =>
    have : pat ≠ [] := by rintro rfl; simp at h
    simp [findAux, this]
  | cons c s ih =>
    have hp : pat.isPrefixOf (c :: s) = false := by
      cases hh : pat.isPrefixOf (c :: s) with
      | false => rfl
      | true =>
        have := (List.isPrefixOf_iff_prefix.1 hh).length_le
        omega
    simp only [findAux, hp, Bool.false_eq_true, if_false]
    exact ih (by simp only [List.length_cons] at h; omega) _

/-- Searching in a part of a text whose first occurrence of `pat` is known. -/
theorem findAux_first {pat pre rest cur : Str} (hne : pat ≠ [])
    (hfirst : ∀ u v, pre ++ pat = u ++ pat ++ v → v = []) (h : cur <+: pre ++ pat ++ rest) (i : Nat) :
    findAux pat cur i = if pre.length + pat.length ≤ cur.length then some (i + pre.length) else none := by
  induction pre generalizing cur i with
  | nil =>
    by_cases hl : pat.length ≤ cur.length
    · have hp : pat <+: cur := by
        rw [List.nil_append] at h
        exact List.prefix_of_prefix_length_le (List.prefix_append _ _) h hl
      cases cur with
      | nil => simp at hl; exact absurd hl hne
      | cons c s =>
        simp only [List.length_cons] at hl
        simp [findAux, List.isPrefixOf_iff_prefix.2 hp]; omega
    · rw [findAux_short (by omega)]; simp [hl]
  | cons a pre ih =>
    cases cur with
    | nil =>
      simp [findAux, hne]
    | cons c s =>
      have hc : c = a := by
        obtain ⟨t, ht⟩ := h
        simp at ht
        exact ht.1
      subst hc
      have hs : s <+: pre ++ pat ++ rest := by
        obtain ⟨t, ht⟩ := h
        simp at ht
        exact ⟨t, by simpa using ht⟩
      have hp : pat.isPrefixOf (c :: s) = false := by
        cases hh : pat.isPrefixOf (c :: s) with
        | false => rfl
        | true =>
          have h1 := List.isPrefixOf_iff_prefix.1 hh
          have h2 : pat <+: c :: pre ++ pat ++ rest := h1.trans h
          have h3 : pat <+: c :: pre ++ pat :=
            List.prefix_of_prefix_length_le h2 (List.prefix_append _ _) (by simp; omega)
          obtain ⟨v, hv⟩ := h3
          have := hfirst [] v (by simpa using hv.symm)
          subst this
          have := congrArg List.length hv
          simp at this
          omega
      simp only [findAux, hp, Bool.false_eq_true, if_false]
      rw [ih (fun u v hv => hfirst (c :: u) v (by simp [hv])) hs]
      simp only [List.length_cons]
      by_cases hl : pre.length + pat.length ≤ s.length
      · rw [if_pos hl, if_pos (by omega)]; congr 1; omega
      · rw [if_neg hl, if_neg (by omega)]

theorem findFrom_first {pat pre rest past cur : Str} (hne : pat ≠ [])
    (hfirst : ∀ u v, pre ++ pat = u ++ pat ++ v → v = []) (h : cur <+: pre ++ pat ++ rest) :
    findFrom (past ++ cur) pat past.length =
      if pre.length + pat.length ≤ cur.length then some (past.length + pre.length) else none := by
  unfold findFrom
  rw [if_pos (by simp), List.drop_left]
  exact findAux_first hne hfirst h _

/-! ## Reading until enough bytes are there -/

/-- Append chunks until the buffer has `need` bytes. -/
def takeUntil (need : Nat) : Str → List Str → Option (Str × List Str)
  | buf, [] => if buf.length < need then none else some (buf, [])
  | buf, c :: cs => if buf.length < need then takeUntil need (buf ++ c) cs else some (buf, c :: cs)

theorem takeUntil_enough {need : Nat} {buf : Str} (h : need ≤ buf.length) (cs : List Str) :
    takeUntil need buf cs = some (buf, cs) := by
  cases cs <;> simp [takeUntil, Nat.not_lt.2 h]

theorem takeUntil_none {need : Nat} {buf : Str} {cs : List Str} (h : takeUntil need buf cs = none) :
    (buf ++ cs.flatten).length < need := by
  induction cs generalizing buf with
  | nil =>
    simp only [takeUntil] at h
    split at h
    · simpa
    · simp at h
  | cons c cs ih =>
    simp only [takeUntil] at h
    split at h
    · have := ih h; simpa [Nat.add_assoc] using this
    · simp at h

theorem takeUntil_some {need : Nat} {buf b : Str} {cs cs' : List Str}
    (h : takeUntil need buf cs = some (b, cs')) :
    ∃ k, k ≤ cs.length ∧ cs' = cs.drop k ∧ b = buf ++ (cs.take k).flatten ∧ need ≤ b.length ∧
      ∀ j < k, (buf ++ (cs.take j).flatten).length < need := by
  induction cs generalizing buf with
  | nil =>
    simp only [takeUntil] at h
    split at h
    · simp at h
    · simp at h; obtain ⟨rfl, rfl⟩ := h
      exact ⟨0, by simp, by simp, by simp, by omega, by simp⟩
  | cons c cs ih =>
    simp only [takeUntil] at h
    split at h
    · next hlt =>
      obtain ⟨k, hk, h1, h2, h3, h4⟩ := ih h
      refine ⟨k + 1, by simp [hk], by simp [h1], by simp [h2], h3, ?_⟩
      intro j hj
      cases j with
      | zero => simpa using hlt
      | succ j => have := h4 j (by omega); simpa [Nat.add_assoc] using this
    · simp at h; obtain ⟨rfl, rfl⟩ := h
      exact ⟨0, by simp, by simp, by simp, by omega, by simp⟩

theorem takeUntil_comp {a b : Nat} (hab : a ≤ b) (buf : Str) (cs : List Str) :
    (takeUntil a buf cs).bind (fun x => takeUntil b x.1 x.2) = takeUntil b buf cs := by
  induction cs generalizing buf with
  | nil =>
    simp only [takeUntil]
    split
    · rw [if_pos (by omega)]; rfl
    · simp [takeUntil]
  | cons c cs ih =>
    simp only [takeUntil]
    split
    · rw [if_pos (by omega)]; exact ih _
    · simp [takeUntil]

theorem awaitSize_eq {pos size : Nat} {buf : Str} (h : pos ≤ buf.length) (cs : List Str) :
    awaitSize pos size buf cs = takeUntil (pos + size) buf cs := by
  induction cs generalizing buf with
  | nil =>
    simp only [awaitSize, takeUntil]
    by_cases hl : buf.length - pos < size
    · rw [if_pos hl, if_pos (by omega)]
    · rw [if_neg hl, if_neg (by omega)]
  | cons c cs ih =>
    simp only [awaitSize, takeUntil]
    by_cases hl : buf.length - pos < size
    · rw [if_pos hl, if_pos (by omega)]; exact ih (by simp; omega)
    · rw [if_neg hl, if_neg (by omega)]

theorem awaitFind_eq {pat pre rest past cur : Str} {cs : List Str} (hne : pat ≠ [])
    (hfirst : ∀ u v, pre ++ pat = u ++ pat ++ v → v = []) (h : cur ++ cs.flatten <+: pre ++ pat ++ rest) :
    awaitFind pat past.length (findFrom (past ++ cur) pat past.length) (past ++ cur) cs =
      (takeUntil (past.length + pre.length + pat.length) (past ++ cur) cs).map
        fun x => (past.length + pre.length, x.1, x.2) := by
  induction cs generalizing cur with
  | nil =>
    rw [findFrom_first hne hfirst (by simpa using h)]
    simp only [takeUntil, List.length_append]
    by_cases hl : pre.length + pat.length ≤ cur.length
    · rw [if_pos hl, if_neg (by omega)]; simp [awaitFind]
    · rw [if_neg hl, if_pos (by omega)]; simp [awaitFind]
  | cons c cs ih =>
    rw [findFrom_first hne hfirst ((List.prefix_append _ _).trans h)]
    simp only [takeUntil, List.length_append]
    by_cases hl : pre.length + pat.length ≤ cur.length
    · rw [if_pos hl, if_neg (by omega)]; simp [awaitFind]
    · rw [if_neg hl, if_pos (by omega)]
      simp only [awaitFind]
      rw [List.append_assoc]
      have := ih (cur := cur ++ c) (by simpa [List.append_assoc] using h)
      rw [this]

/-! ## Numbers -/

theorem takeWhile_digits {ds : Str} (h : ∀ c ∈ ds, isDigit c = true) {c : UInt8} (hc : isDigit c = false) (t : Str) :
    (ds ++ c :: t).takeWhile isDigit = ds := by
  induction ds with
  | nil => simp [hc]
  | cons d ds ih =>
    simp only [List.cons_append, List.takeWhile_cons, h d (by simp), if_true]
    rw [ih fun c hc => h c (by simp [hc])]

theorem digit_not_space {c : UInt8} (h : isDigit c = true) : isSpace c = false ∧ c ≠ 45 ∧ c ≠ 43 := by
  have := isDigit_ascii h
  have h13 : ∀ x : UInt8, isSpace x = true → x.toNat ≤ 32 := by
    intro x hx
    simp only [isSpace, Bool.or_eq_true, Bool.and_eq_true, beq_iff_eq, decide_eq_true_eq, UInt8.le_iff_toNat_le] at hx
    rcases hx with hx | hx
    · subst hx; decide
    · have := hx.2; simp at this; omega
  refine ⟨?_, ?_, ?_⟩
  · cases hs : isSpace c with
    | false => rfl
    | true => have := h13 c hs; omega
  · rintro rfl; simp at this
  · rintro rfl; simp at this

theorem stoull_digits {ds : Str} (hne : ds ≠ []) (h : ∀ c ∈ ds, isDigit c = true) (hlt : digitsVal 0 ds < two64)
    (t : Str) : stoull (ds ++ 13 :: t) = .ok (digitsVal 0 ds) := by
  have htw := takeWhile_digits h (c := 13) (by decide) t
  cases ds with
  | nil => exact absurd rfl hne
  | cons d ds =>
    obtain ⟨h1, h2, h3⟩ := digit_not_space (h d (by simp))
    simp only [List.cons_append] at htw
    simp only [stoull, List.cons_append, List.dropWhile_cons, h1, Bool.false_eq_true, if_false, h2, h3, stoullDigits,
      htw]
    simp [Nat.not_le.2 hlt]

/-! ## One message -/

theorem dapHeader_length : dapHeader.length = 16 := by decide
theorem dapSeparator_length : dapSeparator.length = 4 := by decide
theorem dapSeparator_cons : dapSeparator = 13 :: [10, 13, 10] := by decide
theorem crlf_cons : lit "\r\n" = 13 :: [10] := by decide

theorem announces_ne {head : Str} {n : Nat} (h : Announces head n) : 0 < head.length := by
  obtain ⟨pre, ds, post, rfl, _⟩ := h
  have := dapSeparator_length
  simp only [List.length_append]
  unfold dapSeparator at this
  omega

theorem readIter_msg {next : Option Nat → Nat → Str → List Str → List Str → Read}
    {m : DapMsg} (hm : m.Ok) {rest past cur : Str} {cs q : List Str}
    (h : cur ++ cs.flatten <+: m.head ++ m.body ++ rest) :
    readIter next (findFrom (past ++ cur) dapHeader past.length) past.length (past ++ cur) cs q =
      match takeUntil (past.length + (m.head ++ m.body).length) (past ++ cur) cs with
      | none => .blocked
      | some (buf, cs') =>
        if buf.length = past.length + (m.head ++ m.body).length then .got (q ++ [m.body]) cs'
        else next (findFrom buf dapHeader (past.length + (m.head ++ m.body).length))
          (past.length + (m.head ++ m.body).length) buf cs' (q ++ [m.body]) := by
  obtain ⟨head, body⟩ := m
  obtain ⟨⟨pre, ds, post, hhead, hpre, hds, hdig, hval, hpost, hsep⟩, hsize⟩ := hm
  change head = _ at hhead
  change digitsVal 0 ds = body.length at hval
  change body.length < _ at hsize
  dsimp only at h ⊢
  have hH : lit "Content-Length: " = dapHeader := rfl
  have hS : lit "\r\n\r\n" = dapSeparator := rfl
  rw [hH, hS] at hhead
  rw [hH] at hpre
  rw [hS] at hsep
  have hlen : head.length = pre.length + 16 + ds.length + post.length + 4 := by
    rw [hhead]; simp only [List.length_append, dapHeader_length, dapSeparator_length]
  -- first loop
  have h1 : cur ++ cs.flatten <+: pre ++ dapHeader ++ (ds ++ post ++ dapSeparator ++ body ++ rest) := by
    rw [hhead] at h; simpa [List.append_assoc] using h
  unfold readIter
  rw [awaitFind_eq (by decide) hpre h1, dapHeader_length]
  rw [← takeUntil_comp (a := past.length + pre.length + 16) (b := past.length + (head ++ body).length)
    (by simp only [List.length_append]; omega)]
  cases ht1 : takeUntil (past.length + pre.length + 16) (past ++ cur) cs with
  | none => simp only [Option.map_none, Option.bind_none]
  | some x1 =>
    obtain ⟨b1, cs1⟩ := x1
    simp only [Option.map_some, Option.bind_some]
    obtain ⟨k1, hk1, hcs1, hb1, hl1, _⟩ := takeUntil_some ht1
    -- the buffer is past ++ pre ++ header ++ cur2
    have hb1' : b1 = past ++ (cur ++ (cs.take k1).flatten) := by rw [hb1, List.append_assoc]
    have hpfx1 : cur ++ (cs.take k1).flatten <+: pre ++ dapHeader ++ (ds ++ post ++ dapSeparator ++ body ++ rest) := by
      refine List.IsPrefix.trans ?_ h1
      rw [List.prefix_append_right_inj]
      have := List.take_append_drop k1 cs
      exact ⟨(cs.drop k1).flatten, by rw [← List.flatten_append, this]⟩
    obtain ⟨cur2, hcur2⟩ : ∃ cur2, cur ++ (cs.take k1).flatten = pre ++ dapHeader ++ cur2 := by
      have : pre ++ dapHeader <+: cur ++ (cs.take k1).flatten := by
        refine List.prefix_of_prefix_length_le (List.prefix_append _ _) hpfx1 ?_
        rw [hb1'] at hl1
        simp only [List.length_append, dapHeader_length] at hl1 ⊢
        omega
      obtain ⟨t, ht⟩ := this
      exact ⟨t, ht.symm⟩
    have hb1'' : b1 = (past ++ pre ++ dapHeader) ++ cur2 := by rw [hb1', hcur2]; simp [List.append_assoc]
    have hp16 : past.length + pre.length + 16 = (past ++ pre ++ dapHeader).length := by
      simp only [List.length_append, dapHeader_length]
    have h2 : cur2 ++ cs1.flatten <+: ds ++ post ++ dapSeparator ++ (body ++ rest) := by
      have : cur ++ cs.flatten = pre ++ dapHeader ++ (cur2 ++ cs1.flatten) := by
        rw [hcs1, ← List.append_assoc, ← hcur2, List.append_assoc, ← List.flatten_append, List.take_append_drop]
      rw [this, List.prefix_append_right_inj] at h1
      simpa [List.append_assoc] using h1
    rw [hb1'', hp16, awaitFind_eq (by decide) hsep h2, ← hb1'', ← hp16, dapSeparator_length]
    rw [← takeUntil_comp (a := past.length + pre.length + 16 + (ds ++ post).length + 4)
      (b := past.length + (head ++ body).length) (by simp only [List.length_append]; omega)]
    cases ht2 : takeUntil (past.length + pre.length + 16 + (ds ++ post).length + 4) b1 cs1 with
    | none => simp only [Option.map_none, Option.bind_none]
    | some x2 =>
      obtain ⟨b2, cs2⟩ := x2
      simp only [Option.map_some, Option.bind_some]
      obtain ⟨k2, hk2, hcs2, hb2, hl2, _⟩ := takeUntil_some ht2
      have hb2' : b2 = (past ++ pre ++ dapHeader) ++ (cur2 ++ (cs1.take k2).flatten) := by
        rw [hb2, hb1'', List.append_assoc]
      have hpfx2 : cur2 ++ (cs1.take k2).flatten <+: ds ++ post ++ dapSeparator ++ (body ++ rest) := by
        refine List.IsPrefix.trans ?_ h2
        rw [List.prefix_append_right_inj]
        exact ⟨(cs1.drop k2).flatten, by rw [← List.flatten_append, List.take_append_drop]⟩
      obtain ⟨cur3, hcur3⟩ : ∃ cur3, cur2 ++ (cs1.take k2).flatten = ds ++ post ++ dapSeparator ++ cur3 := by
        have : ds ++ post ++ dapSeparator <+: cur2 ++ (cs1.take k2).flatten := by
          refine List.prefix_of_prefix_length_le (List.prefix_append _ _) hpfx2 ?_
          rw [hb2'] at hl2
          simp only [List.length_append, dapHeader_length, dapSeparator_length] at hl2 ⊢
          omega
        obtain ⟨t, ht⟩ := this
        exact ⟨t, ht.symm⟩
      have hb2'' : b2 = (past ++ pre ++ dapHeader) ++ (ds ++ post ++ dapSeparator ++ cur3) := by rw [hb2', hcur3]
      have hb2h : b2 = past ++ head ++ cur3 := by rw [hb2'', hhead]; simp [List.append_assoc]
      -- the number
      have hsub : ∃ t, substr b2 (past.length + pre.length + 16)
          (past.length + pre.length + 16 + (ds ++ post).length) = ds ++ 13 :: t := by
        obtain ⟨t0, ht0⟩ : ∃ t0, post ++ dapSeparator ++ cur3 = 13 :: t0 := by
          rcases hpost with hpost | ⟨t, ht⟩
          · exact ⟨_, by rw [hpost, dapSeparator_cons]; rfl⟩
          · exact ⟨_, by rw [ht, crlf_cons]; rfl⟩
        refine ⟨t0.take (past.length + pre.length + 16 + (ds ++ post).length - ds.length - 1), ?_⟩
        unfold substr
        rw [hb2'', hp16, List.drop_left]
        have : ds ++ post ++ dapSeparator ++ cur3 = ds ++ 13 :: t0 := by
          rw [← ht0]; simp [List.append_assoc]
        rw [this, List.take_append, List.take_of_length_le (by simp only [List.length_append]; omega)]
        congr 1
        have hpos : (past ++ pre ++ dapHeader).length + (ds ++ post).length - ds.length =
            ((past ++ pre ++ dapHeader).length + (ds ++ post).length - ds.length - 1) + 1 := by
          simp only [List.length_append, dapHeader_length]; omega
        rw [hpos, List.take_succ_cons]
        rfl
      obtain ⟨t, ht⟩ := hsub
      rw [ht, stoull_digits hds hdig (by rw [hval]; exact hsize), hval]
      dsimp only
      have hmp : past.length + pre.length + 16 + (ds ++ post).length + 4 = past.length + head.length := by
        simp only [List.length_append]; omega
      have hb2l : past.length + head.length ≤ b2.length := by rw [hb2h]; simp
      rw [hmp, awaitSize_eq hb2l, List.length_append, ← Nat.add_assoc]
      cases ht3 : takeUntil (past.length + head.length + body.length) b2 cs2 with
      | none => rfl
      | some x3 =>
        obtain ⟨b3, cs3⟩ := x3
        obtain ⟨k3, hk3, hcs3, hb3, hl3, _⟩ := takeUntil_some ht3
        dsimp only
        have hb3' : b3 = past ++ head ++ (cur3 ++ (cs2.take k3).flatten) := by
          rw [hb3, hb2h]; simp [List.append_assoc]
        have hpfx3 : cur3 ++ (cs2.take k3).flatten <+: body ++ rest := by
          have e : cur2 ++ cs1.flatten = ds ++ post ++ dapSeparator ++ (cur3 ++ cs2.flatten) := by
            rw [hcs2, ← List.append_assoc, ← hcur3, List.append_assoc, ← List.flatten_append, List.take_append_drop]
          rw [e, List.prefix_append_right_inj] at h2
          refine List.IsPrefix.trans ?_ h2
          rw [List.prefix_append_right_inj]
          exact ⟨(cs2.drop k3).flatten, by rw [← List.flatten_append, List.take_append_drop]⟩
        obtain ⟨cur4, hcur4⟩ : ∃ cur4, cur3 ++ (cs2.take k3).flatten = body ++ cur4 := by
          have : body <+: cur3 ++ (cs2.take k3).flatten := by
            refine List.prefix_of_prefix_length_le (List.prefix_append _ _) hpfx3 ?_
            rw [hb3'] at hl3
            simp only [List.length_append] at hl3 ⊢
            omega
          obtain ⟨t, ht⟩ := this
          exact ⟨t, ht.symm⟩
        have hb3'' : b3 = (past ++ head) ++ (body ++ cur4) := by rw [hb3', hcur4]
        have hdrop : b3.drop (past.length + head.length) = body ++ cur4 := by
          rw [hb3'', ← List.length_append, List.drop_left]
        have hb3len : b3.length = past.length + head.length + body.length + cur4.length := by
          rw [hb3'']; simp only [List.length_append]; omega
        by_cases he : cur4 = []
        · subst he
          rw [if_pos (by rw [hb3len]; simp), if_pos (by rw [hb3len]; simp), hdrop]
          simp
        · have : 0 < cur4.length := List.length_pos_iff.2 he
          rw [if_neg (by rw [hb3len]; omega), if_neg (by rw [hb3len]; omega)]
          have : substr b3 (past.length + head.length) body.length = body := by
            unfold substr; rw [hdrop, List.take_left]
          rw [this]

/-! ## A whole read -/

theorem takeUntil_short {need : Nat} {buf : Str} {cs : List Str} (h : (buf ++ cs.flatten).length < need) :
    takeUntil need buf cs = none := by
  cases ht : takeUntil need buf cs with
  | none => rfl
  | some x =>
    obtain ⟨b, cs'⟩ := x
    obtain ⟨k, hk, _, hb, hl, _⟩ := takeUntil_some ht
    have : (cs.take k).flatten.length ≤ cs.flatten.length := by
      conv => rhs; rw [← List.take_append_drop k cs, List.flatten_append, List.length_append]
      omega
    rw [hb] at hl
    simp only [List.length_append] at hl h
    omega

theorem first_self {pat : Str} : ∀ u v, [] ++ pat = u ++ pat ++ v → v = [] := by
  intro u v h
  have := congrArg List.length h
  simp only [List.length_append, List.length_nil] at this
  exact List.eq_nil_of_length_eq_zero (by omega)

/-- `cur` and the first `k` chunks are exactly the first `n` messages, at least one. -/
def EndsMsgFrom (cur : Str) (cs : List Str) (ms : List DapMsg) (k n : Nat) : Prop :=
  0 < n ∧ n ≤ ms.length ∧ k ≤ cs.length ∧ cur ++ (cs.take k).flatten = wireOfMsgs (ms.take n)

theorem wireOfMsgs_cons (m : DapMsg) (ms : List DapMsg) :
    wireOfMsgs (m :: ms) = m.head ++ m.body ++ wireOfMsgs ms := by simp [wireOfMsgs]

theorem msgOk_pos {m : DapMsg} (h : m.Ok) : 0 < (m.head ++ m.body).length := by
  have := announces_ne h.1
  simp only [List.length_append]; omega

theorem wireOfMsgs_pos {ms : List DapMsg} (hms : ∀ m ∈ ms, m.Ok) (h : ms ≠ []) : 0 < (wireOfMsgs ms).length := by
  cases ms with
  | nil => exact absurd rfl h
  | cons m ms =>
    rw [wireOfMsgs_cons, List.length_append]
    have := msgOk_pos (hms m (by simp))
    omega

theorem readLoop_spec (ms : List DapMsg) (hms : ∀ m ∈ ms, m.Ok) (f : Nat) (past cur : Str) (cs q : List Str)
    (h : cur ++ cs.flatten <+: wireOfMsgs ms) (hf : (cur ++ cs.flatten).length < f) :
    (∃ k n, EndsMsgFrom cur cs ms k n ∧ (∀ j < k, ∀ n', ¬ EndsMsgFrom cur cs ms j n') ∧
      readLoop f (findFrom (past ++ cur) dapHeader past.length) past.length (past ++ cur) cs q =
        .got (q ++ bodies (ms.take n)) (cs.drop k)) ∨
    ((∀ k n, ¬ EndsMsgFrom cur cs ms k n) ∧
      readLoop f (findFrom (past ++ cur) dapHeader past.length) past.length (past ++ cur) cs q = .blocked) := by
  induction ms generalizing f past cur cs q with
  | nil =>
    right
    refine ⟨?_, ?_⟩
    · rintro k n ⟨h1, h2, _⟩
      simp at h2; omega
    · have he : cur ++ cs.flatten = [] := by
        have : wireOfMsgs [] = [] := rfl
        rw [this] at h
        exact List.prefix_nil.1 h
      cases f with
      | zero => omega
      | succ f =>
        have hc : cur = [] := (List.append_eq_nil_iff.1 he).1
        subst hc
        simp only [readLoop]
        unfold readIter
        rw [awaitFind_eq (pre := []) (rest := []) (by decide) first_self (by rw [he]; exact List.nil_prefix)]
        rw [takeUntil_short]
        · rfl
        · rw [List.append_assoc, he, dapHeader_length]; simp
  | cons m ms ih =>
    have hm := hms m (by simp)
    have hms' : ∀ m ∈ ms, m.Ok := fun m hm => hms m (by simp [hm])
    cases f with
    | zero => omega
    | succ f =>
      simp only [readLoop]
      rw [wireOfMsgs_cons] at h
      rw [readIter_msg hm h]
      cases ht : takeUntil (past.length + (m.head ++ m.body).length) (past ++ cur) cs with
      | none =>
        right
        refine ⟨?_, rfl⟩
        rintro k n ⟨hn, hn', hk, he⟩
        have hlt := takeUntil_none ht
        have hl : (m.head ++ m.body).length ≤ (wireOfMsgs ((m :: ms).take n)).length := by
          cases n with
          | zero => omega
          | succ n =>
            rw [List.take_succ_cons, wireOfMsgs_cons, List.length_append (as := m.head ++ m.body)]; omega
        rw [← he] at hl
        have : (cs.take k).flatten.length ≤ cs.flatten.length := by
          conv => rhs; rw [← List.take_append_drop k cs, List.flatten_append, List.length_append]
          omega
        simp only [List.length_append] at hl hlt this
        omega
      | some x =>
        obtain ⟨b, cs'⟩ := x
        obtain ⟨k, hk, hcs', hb, hl, hmin⟩ := takeUntil_some ht
        have hb' : b = past ++ (cur ++ (cs.take k).flatten) := by rw [hb, List.append_assoc]
        have hpfx : cur ++ (cs.take k).flatten <+: m.head ++ m.body ++ wireOfMsgs ms := by
          refine List.IsPrefix.trans ?_ h
          rw [List.prefix_append_right_inj]
          exact ⟨(cs.drop k).flatten, by rw [← List.flatten_append, List.take_append_drop]⟩
        obtain ⟨cur', hcur'⟩ : ∃ cur', cur ++ (cs.take k).flatten = m.head ++ m.body ++ cur' := by
          have : m.head ++ m.body <+: cur ++ (cs.take k).flatten := by
            refine List.prefix_of_prefix_length_le (List.prefix_append _ _) hpfx ?_
            rw [hb'] at hl
            simp only [List.length_append] at hl ⊢
            omega
          obtain ⟨t, ht⟩ := this
          exact ⟨t, ht.symm⟩
        -- no message ends before chunk k
        have hbefore : ∀ j < k, ∀ n', ¬ EndsMsgFrom cur cs (m :: ms) j n' := by
          rintro j hj n' ⟨hn, hn', _, he⟩
          have h1 := hmin j hj
          rw [List.append_assoc, he] at h1
          cases n' with
          | zero => omega
          | succ n' =>
            rw [List.take_succ_cons, wireOfMsgs_cons, List.length_append,
              List.length_append (as := m.head ++ m.body)] at h1
            omega
        dsimp only
        by_cases he : cur' = []
        · subst he
          left
          refine ⟨k, 1, ⟨by omega, by simp, hk, ?_⟩, hbefore, ?_⟩
          · rw [hcur']; simp [wireOfMsgs]
          · rw [if_pos (by rw [hb', hcur']; simp)]
            rw [hcs']; simp [bodies]
        · have hpos : 0 < cur'.length := List.length_pos_iff.2 he
          rw [if_neg (by rw [hb', hcur']; simp only [List.length_append]; omega)]
          have hb'' : b = (past ++ (m.head ++ m.body)) ++ cur' := by rw [hb', hcur']; simp [List.append_assoc]
          have hrest : cur ++ cs.flatten = m.head ++ m.body ++ (cur' ++ (cs.drop k).flatten) := by
            rw [← List.append_assoc, ← hcur', List.append_assoc, ← List.flatten_append, List.take_append_drop]
          have h' : cur' ++ (cs.drop k).flatten <+: wireOfMsgs ms := by
            rw [hrest, List.prefix_append_right_inj] at h
            exact h
          have hf' : (cur' ++ (cs.drop k).flatten).length < f := by
            rw [hrest] at hf
            have := msgOk_pos hm
            simp only [List.length_append] at hf this ⊢
            omega
          have hpl : past.length + (m.head ++ m.body).length = (past ++ (m.head ++ m.body)).length := by
            simp only [List.length_append]
          -- shifting
          have hshift : ∀ j n, EndsMsgFrom cur' (cs.drop k) ms j n → EndsMsgFrom cur cs (m :: ms) (k + j) (n + 1) := by
            rintro j n ⟨h1, h2, h3, h4⟩
            refine ⟨by omega, by simp; omega, by simp at h3; omega, ?_⟩
            rw [List.take_succ_cons, wireOfMsgs_cons, ← h4, List.take_add, List.flatten_append, ← List.append_assoc,
              hcur', List.append_assoc]
          have hback : ∀ j n, EndsMsgFrom cur cs (m :: ms) j n →
              k ≤ j ∧ ∃ n', n = n' + 1 ∧ EndsMsgFrom cur' (cs.drop k) ms (j - k) n' := by
            rintro j n hj
            have hkj : k ≤ j := by
              rcases Nat.lt_or_ge j k with hlt | hge
              · exact absurd hj (hbefore j hlt n)
              · exact hge
            refine ⟨hkj, ?_⟩
            obtain ⟨h1, h2, h3, h4⟩ := hj
            obtain ⟨d, rfl⟩ : ∃ d, j = k + d := ⟨j - k, by omega⟩
            cases n with
            | zero => omega
            | succ n =>
              rw [List.take_succ_cons, wireOfMsgs_cons, List.take_add, List.flatten_append, ← List.append_assoc, hcur',
                List.append_assoc] at h4
              have h5 := List.append_cancel_left h4
              refine ⟨n, rfl, ?_, by simpa using h2, by simp; omega, by rw [Nat.add_sub_cancel_left]; exact h5⟩
              cases n with
              | zero =>
                simp [wireOfMsgs] at h5
                exact absurd h5.1 he
              | succ n => omega
          rw [hb'', hpl, hcs']
          rcases ih hms' f (past ++ (m.head ++ m.body)) cur' (cs.drop k) (q ++ [m.body]) h' hf' with
            ⟨k', n, h1, h2, h3⟩ | ⟨h1, h2⟩
          · left
            refine ⟨k + k', n + 1, hshift _ _ h1, ?_, ?_⟩
            · intro j hj n' hn'
              obtain ⟨hkj, n'', rfl, h4⟩ := hback _ _ hn'
              exact h2 (j - k) (by omega) _ h4
            · rw [h3]; simp [bodies, List.drop_drop]
          · right
            refine ⟨?_, h2⟩
            intro j n hjn
            obtain ⟨_, n', _, h4⟩ := hback _ _ hjn
            exact h1 _ _ h4

theorem handleTcp_cases {ms : List DapMsg} (hms : ∀ m ∈ ms, m.Ok) {cs : List Str} (q : List Str)
    (h : cs.flatten <+: wireOfMsgs ms) :
    (∃ k n, EndsMsg cs ms k n ∧ (∀ j < k, ∀ n', ¬ EndsMsg cs ms j n') ∧
      handleTcp q cs = .got (q ++ bodies (ms.take n)) (cs.drop k)) ∨
    ((∀ k n, ¬ EndsMsg cs ms k n) ∧ handleTcp q cs = .blocked) := by
  have e : ∀ k n, EndsMsgFrom [] cs ms k n ↔ EndsMsg cs ms k n := by
    intro k n; simp [EndsMsgFrom, EndsMsg]
  have hfind : findFrom ([] ++ []) dapHeader ([] : Str).length = none := by decide
  have := readLoop_spec ms hms (cs.flatten.length + 1) [] [] cs q (by simpa using h) (by simp)
  rw [hfind] at this
  simp only [e] at this
  exact this

theorem wireOfMsgs_take_lt {ms : List DapMsg} (hms : ∀ m ∈ ms, m.Ok) {a b : Nat} (hab : a < b)
    (hb : b ≤ ms.length) : (wireOfMsgs (ms.take a)).length < (wireOfMsgs (ms.take b)).length := by
  obtain ⟨d, rfl⟩ : ∃ d, b = a + (d + 1) := ⟨b - a - 1, by omega⟩
  have : wireOfMsgs (ms.take (a + (d + 1))) = wireOfMsgs (ms.take a) ++ wireOfMsgs ((ms.drop a).take (d + 1)) := by
    rw [List.take_add]; simp [wireOfMsgs]
  rw [this, List.length_append]
  have := wireOfMsgs_pos (ms := (ms.drop a).take (d + 1))
    (fun m hm => hms m (List.mem_of_mem_drop (List.mem_of_mem_take hm)))
    (by
      intro h0
      have := congrArg List.length h0
      simp at this
      omega)
  omega

theorem EndsMsg.unique {ms : List DapMsg} (hms : ∀ m ∈ ms, m.Ok) {cs : List Str} {k n n' : Nat}
    (h : EndsMsg cs ms k n) (h' : EndsMsg cs ms k n') : n = n' := by
  have e : (wireOfMsgs (ms.take n)).length = (wireOfMsgs (ms.take n')).length := by
    rw [← h.2.2.2, ← h'.2.2.2]
  rcases Nat.lt_trichotomy n n' with hlt | heq | hgt
  · have := wireOfMsgs_take_lt hms hlt h'.2.1; omega
  · exact heq
  · have := wireOfMsgs_take_lt hms hgt h.2.1; omega

/-! ## Any stream -/

theorem findAux_ge {pat s : Str} {i p : Nat} (h : findAux pat s i = some p) : i ≤ p := by
  induction s generalizing i with
  | nil =>
    simp only [findAux] at h
    split at h
    · simp at h; omega
    · simp at h
  | cons c s ih =>
    simp only [findAux] at h
    split at h
    · simp at h; omega
    · have := ih h; omega

theorem findFrom_ge {s pat : Str} {pos p : Nat} (h : findFrom s pat pos = some p) : pos ≤ p := by
  unfold findFrom at h
  split at h
  · exact findAux_ge h
  · simp at h

theorem awaitFind_parts {pat : Str} {hint p : Nat} {pos : Option Nat} {buf buf' : Str} {cs cs' : List Str}
    (hp : ∀ x, pos = some x → hint ≤ x) (h : awaitFind pat hint pos buf cs = some (p, buf', cs')) :
    hint ≤ p ∧ ∃ used, cs = used ++ cs' ∧ buf' = buf ++ used.flatten ∧ (pos = none → used ≠ []) := by
  induction cs generalizing pos buf with
  | nil =>
    cases pos with
    | none => simp [awaitFind] at h
    | some x =>
      simp [awaitFind] at h
      obtain ⟨rfl, rfl, rfl⟩ := h
      exact ⟨hp _ rfl, [], by simp⟩
  | cons c cs ih =>
    cases pos with
    | none =>
      simp only [awaitFind] at h
      obtain ⟨h1, used, h2, h3, _⟩ := ih (fun x hx => findFrom_ge hx) h
      exact ⟨h1, c :: used, by simp [h2], by simp [h3], by simp⟩
    | some x =>
      simp [awaitFind] at h
      obtain ⟨rfl, rfl, rfl⟩ := h
      exact ⟨hp _ rfl, [], by simp⟩

theorem awaitSize_parts {pos size : Nat} {buf buf' : Str} {cs cs' : List Str}
    (h : awaitSize pos size buf cs = some (buf', cs')) :
    size ≤ buf'.length - pos ∧ ∃ used, cs = used ++ cs' ∧ buf' = buf ++ used.flatten := by
  induction cs generalizing buf with
  | nil =>
    simp only [awaitSize] at h
    split at h
    · simp at h
    · simp at h; obtain ⟨rfl, rfl⟩ := h
      exact ⟨by omega, [], by simp⟩
  | cons c cs ih =>
    simp only [awaitSize] at h
    split at h
    · obtain ⟨h1, used, h2, h3⟩ := ih h
      exact ⟨h1, c :: used, by simp [h2], by simp [h3]⟩
    · simp at h; obtain ⟨rfl, rfl⟩ := h
      exact ⟨by omega, [], by simp⟩

theorem stoull_cases (s : Str) : (∃ n, stoull s = .ok n) ∨ ∃ e, stoull s = .exc e := by
  have hd : ∀ b s, (∃ n, stoullDigits b s = .ok n) ∨ ∃ e, stoullDigits b s = .exc e := by
    intro b s
    simp only [stoullDigits]
    split
    · exact .inr ⟨_, rfl⟩
    · split
      · exact .inr ⟨_, rfl⟩
      · exact .inl ⟨_, rfl⟩
  unfold stoull
  split
  · split
    · exact hd _ _
    · split
      · exact hd _ _
      · exact hd _ _
  · exact .inr ⟨_, rfl⟩

/-- The shape of a read of any stream: it takes at least one chunk and at least one message, throws or blocks. -/
theorem readLoop_shape (f : Nat) (pos : Option Nat) (hint : Nat) (buf : Str) (cs q : List Str)
    (hp : ∀ x, pos = some x → hint ≤ x) (hf : (buf ++ cs.flatten).length < hint + f) :
    (∃ batch used cs', batch ≠ [] ∧ cs = used ++ cs' ∧ (pos = none → used ≠ []) ∧
      ∀ q, readLoop f pos hint buf cs q = .got (q ++ batch) cs') ∨
    (∃ e batch used cs', cs = used ++ cs' ∧ (pos = none → used ≠ []) ∧
      ∀ q, readLoop f pos hint buf cs q = .thrown e (q ++ batch) cs') ∨ (∀ q, readLoop f pos hint buf cs q = .blocked) ∨
    (buf ++ cs.flatten).length < hint := by
  induction f generalizing pos hint buf cs q with
  | zero => exact .inr (.inr (.inr (by omega)))
  | succ f ih =>
    simp only [readLoop, readIter]
    cases h1 : awaitFind dapHeader hint pos buf cs with
    | none => exact .inr (.inr (.inl fun _ => rfl))
    | some x1 =>
      obtain ⟨hp1, b1, cs1⟩ := x1
      obtain ⟨g1, u1, e1, eb1, n1⟩ := awaitFind_parts hp h1
      dsimp only
      cases h2 : awaitFind dapSeparator (hp1 + 16) (findFrom b1 dapSeparator (hp1 + 16)) b1 cs1 with
      | none => exact .inr (.inr (.inl fun _ => rfl))
      | some x2 =>
        obtain ⟨sp, b2, cs2⟩ := x2
        obtain ⟨g2, u2, e2, eb2, _⟩ := awaitFind_parts (fun x hx => findFrom_ge hx) h2
        dsimp only
        rcases stoull_cases (substr b2 (hp1 + 16) sp) with ⟨size, hs⟩ | ⟨e, hs⟩
        · rw [hs]
          dsimp only
          cases h3 : awaitSize (sp + 4) size b2 cs2 with
          | none => exact .inr (.inr (.inl fun _ => rfl))
          | some x3 =>
            obtain ⟨b3, cs3⟩ := x3
            obtain ⟨g3, u3, e3, eb3⟩ := awaitSize_parts h3
            dsimp only
            have hcs : cs = (u1 ++ u2 ++ u3) ++ cs3 := by rw [e1, e2, e3]; simp [List.append_assoc]
            have hne : pos = none → u1 ++ u2 ++ u3 ≠ [] := by
              intro hn h0
              simp only [List.append_eq_nil_iff] at h0
              exact n1 hn h0.1.1
            have htot : buf ++ cs.flatten = b3 ++ cs3.flatten := by
              rw [hcs, eb3, eb2, eb1]; simp [List.append_assoc]
            split
            · exact .inl ⟨[b3.drop (sp + 4)], u1 ++ u2 ++ u3, cs3, by simp, hcs, hne, fun _ => rfl⟩
            · next hneq =>
              rcases ih (findFrom b3 dapHeader (sp + 4 + size)) (sp + 4 + size) b3 cs3 [] (fun x hx => findFrom_ge hx)
                  (by rw [← htot]; omega) with ⟨batch, used, cs', hb, hu, _, hr⟩ |
                    ⟨e, batch, used, cs', hu, _, hr⟩ | hr | hr
              · refine .inl ⟨substr b3 (sp + 4) size :: batch, u1 ++ u2 ++ u3 ++ used, cs', by simp, ?_, ?_, ?_⟩
                · rw [hcs, hu]; simp [List.append_assoc]
                · intro hn h0
                  exact hne hn (List.append_eq_nil_iff.1 h0).1
                · intro q; rw [hr]; simp
              · refine .inr (.inl ⟨e, substr b3 (sp + 4) size :: batch, u1 ++ u2 ++ u3 ++ used, cs', ?_, ?_, ?_⟩)
                · rw [hcs, hu]; simp [List.append_assoc]
                · intro hn h0
                  exact hne hn (List.append_eq_nil_iff.1 h0).1
                · intro q; rw [hr]; simp
              · exact .inr (.inr (.inl fun q => hr _))
              · exfalso
                simp only [List.length_append] at hr
                omega
        · rw [hs]
          refine .inr (.inl ⟨e, [], u1 ++ u2, cs2, by rw [e1, e2]; simp [List.append_assoc], ?_, by simp⟩)
          intro hn h0
          exact n1 hn (List.append_eq_nil_iff.1 h0).1

theorem handleTcp_shape (cs : List Str) :
    (∃ batch used cs', batch ≠ [] ∧ used ≠ [] ∧ cs = used ++ cs' ∧ ∀ q, handleTcp q cs = .got (q ++ batch) cs') ∨
    (∃ e batch used cs', used ≠ [] ∧ cs = used ++ cs' ∧ ∀ q, handleTcp q cs = .thrown e (q ++ batch) cs') ∨ (∀ q, handleTcp q cs = .blocked) := by
  rcases readLoop_shape (cs.flatten.length + 1) none 0 [] cs [] (by simp) (by simp) with
    ⟨b, u, c, h1, h2, h3, h4⟩ | ⟨e, b, u, c, h2, h3, h4⟩ | h | h
  · exact .inl ⟨b, u, c, h1, h3 rfl, h2, h4⟩
  · exact .inr (.inl ⟨e, b, u, c, h3 rfl, h2, h4⟩)
  · exact .inr (.inr h)
  · simp at h

/-- The counter of `readLoop` never runs out. -/
theorem handleTcp_counter (q cs : List Str) : handleTcp q cs ≠ .endless := by
  rcases handleTcp_shape cs with ⟨b, u, c, _, _, _, h⟩ | ⟨e, b, u, c, _, _, h⟩ | h <;> rw [h] <;> simp

end Xeus
