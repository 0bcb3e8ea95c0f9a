import Verif.History.Spec

/-! # History manager: helper lemmas, and a concrete regular expression library -/

namespace Xeus

open Spec

/-! ## Elementary facts -/

theorem histSize_eq {h : Hist} (hl : (h.length : Int) ≤ intMax) : histSize h = h.length := by
  apply wrap32_id
  unfold InInt intMin intMax at *
  omega

theorem projEntry_eq (o : Bool) (e : HEntry) : projEntry o e = columns o e := by
  cases o <;> rfl

theorem projEntry_fun (o : Bool) : projEntry o = columns o := funext (projEntry_eq o)

theorem cStr_eq (s : Str) : cStr s = s.takeWhile (· ≠ 0) := by
  have : (fun c : UInt8 => c != 0) = fun c => decide (c ≠ 0) := by
    funext c
    by_cases h : c = 0 <;> simp [h]
  simp only [cStr, this]

theorem histReply_eq (l : List (List Str)) : histReply l = okReply l := by
  simp +decide [histReply, Json.put, Json.insertKV, entriesJson, okReply]

theorem foldl_cons_map {α β : Type} (f : α → β) (l : List α) (acc : List β) :
    l.foldl (fun acc e => f e :: acc) acc = (l.map f).reverse ++ acc := by
  induction l generalizing acc with
  | nil => rfl
  | cons x xs ih => simp [ih]

theorem lastN_reverse {α : Type} (n : Nat) (l : List α) : (l.reverse.take n).reverse = lastN n l := by
  rw [lastN, List.take_reverse, List.reverse_reverse]

theorem lastN_min {α : Type} (n : Nat) (l : List α) : lastN (min n l.length) l = lastN n l := by
  unfold lastN
  congr 1
  omega

theorem nextPos_ok {len : Nat} {n : Int} (h : 0 ≤ n ∧ n ≤ len) : nextPos len n = .ok n.toNat := by
  simp [nextPos, h]

theorem nextPos_ub {len : Nat} {n : Int} (h : ¬ (0 ≤ n ∧ n ≤ len)) :
    nextPos len n = .ub "std::next outside of the history list" := by
  simp only [nextPos, h, if_false]

theorem digitsAux_toDigits (f n : Nat) (ds : List Char) :
    digitsAux f n (ds.map fun c => UInt8.ofNat c.toNat) =
      (Nat.toDigitsCore 10 f n ds).map fun c => UInt8.ofNat c.toNat := by
  have hd : ∀ k : Fin 10, digitChr k.val = UInt8.ofNat (Nat.digitChar k.val).toNat := by decide
  induction f generalizing n ds with
  | zero => rfl
  | succ f ih =>
    simp only [digitsAux, Nat.toDigitsCore]
    have hc := hd ⟨n % 10, Nat.mod_lt _ (by decide)⟩
    by_cases h : n < 10
    · rw [if_pos h, if_pos (by omega)]
      simp only [List.map_cons, hc]
    · rw [if_neg h, if_neg (by omega), ← ih]
      simp only [List.map_cons, hc]

theorem natDigits_eq (n : Nat) : natDigits n = lit (toString n) := by
  have := digitsAux_toDigits (n + 1) n []
  simp only [List.map_nil] at this
  rw [natDigits, this, lit]
  congr 1
  simp [toString, Nat.repr, Nat.toDigits]

/-- `std::to_string` gives the usual decimal text. -/
theorem intToString_eq (i : Int) : intToString i = lit (toString i) := by
  cases i with
  | ofNat n =>
    have h : ¬ (Int.ofNat n) < 0 := by simp
    rw [intToString, if_neg h]
    exact natDigits_eq n
  | negSucc n =>
    have h : Int.negSucc n < 0 := by simp
    rw [intToString, if_pos h]
    have : natDigits (Int.negSucc n).natAbs = lit (toString (n + 1)) := natDigits_eq (n + 1)
    rw [this]
    simp [lit, toString, Int.repr]

/-! ## `std::unique` -/

theorem uniqueLoop_collapsed {α : Type} [DecidableEq α] (x : α) (l : List α) :
    Collapsed (x :: l) (x :: uniqueLoop x l) := by
  induction l generalizing x with
  | nil => exact .single
  | cons y ys ih =>
    simp only [uniqueLoop]
    split
    · next h => subst h; exact .same (ih y)
    · next h => exact .diff (fun e => h e.symm) (ih y)

theorem stdUnique_collapsed {α : Type} [DecidableEq α] (l : List α) : Collapsed l (stdUnique l) := by
  cases l with
  | nil => exact .nil
  | cons x xs => exact uniqueLoop_collapsed x xs

theorem collapsed_unique {α : Type} {l r₁ r₂ : List α} (h₁ : Collapsed l r₁) (h₂ : Collapsed l r₂) :
    r₁ = r₂ := by
  induction h₁ generalizing r₂ with
  | nil => cases h₂; rfl
  | single => cases h₂; rfl
  | same _ ih =>
    cases h₂ with
    | same h => exact ih h
    | diff hne _ => exact absurd rfl hne
  | diff hne _ ih =>
    cases h₂ with
    | same h => exact absurd rfl hne
    | diff _ h => rw [ih h]

theorem collapsed_length {α : Type} {l r : List α} (h : Collapsed l r) : r.length ≤ l.length := by
  induction h with
  | nil => simp
  | single => simp
  | same _ ih => simp at ih ⊢; omega
  | diff _ _ ih => simp at ih ⊢; omega

theorem cleanHistory_ok {α : Type} [DecidableEq α] (l : List α) (n : Int) (u : Bool)
    (hl : (l.length : Int) ≤ intMax) (hn : 0 ≤ n) (hi : InInt n) :
    cleanHistory l n u = .ok (lastN n.toNat (if u then stdUnique l else l)) := by
  unfold cleanHistory
  have hlen : ((if u then stdUnique l else l).length : Int) ≤ intMax := by
    split
    · have := collapsed_length (stdUnique_collapsed l); omega
    · exact hl
  generalize (if u then stdUnique l else l) = k at hlen ⊢
  have hw : wrap32 k.length = k.length := wrap32_id (by unfold InInt intMin intMax at *; omega)
  have hs : intSub (wrap32 k.length) n = .ok (k.length - n) := by
    rw [hw, intSub, if_pos]
    unfold InInt intMin intMax at *; omega
  simp only [hs, Res.bind_ok]
  split
  · next hp =>
    rw [nextPos_ok (by omega)]
    have e : ((k.length : Int) - n).toNat = k.length - n.toNat := by omega
    simp only [Res.bind_ok, Res.pure_def, lastN, e]
  · next hp =>
    simp only [Res.pure_def, lastN]
    rw [show k.length - n.toNat = 0 by omega, List.drop_zero]

theorem cleanHistory_neg {α : Type} [DecidableEq α] (l : List α) (n : Int) (u : Bool)
    (hl : (l.length : Int) ≤ intMax) (hn : n < 0) : ∃ w, cleanHistory l n u = .ub w := by
  unfold cleanHistory
  have hlen : ((if u then stdUnique l else l).length : Int) ≤ intMax := by
    split
    · have := collapsed_length (stdUnique_collapsed l); omega
    · exact hl
  generalize (if u then stdUnique l else l) = k at hlen ⊢
  have hw : wrap32 k.length = k.length := wrap32_id (by unfold InInt intMin intMax at *; omega)
  simp only [hw, intSub]
  split
  · simp only [Res.bind_ok]
    rw [if_pos (by omega), nextPos_ub (by omega)]
    exact ⟨_, rfl⟩
  · exact ⟨_, rfl⟩

/-! ## Pattern translation -/

/-- Token of one pattern character. -/
def tokOf (c : UInt8) : Tok :=
  if c = 42 then .anyStar else if c = 63 then .any else if isSpecialChr c then .esc c else .ord c

theorem special_table : ∀ c : Fin 256, isSpecialChr (UInt8.ofNat c.val) = true ↔
    UInt8.ofNat c.val ∈ escapable := by decide +kernel

theorem isSpecial_iff (c : UInt8) : isSpecialChr c = true ↔ c ∈ escapable := by
  simpa using special_table ⟨c.toNat, c.toNat_lt⟩

theorem tok_step_table : ∀ c : Fin 256, UInt8.ofNat c.val ≠ 92 →
    globToRegex (if isSpecialChr (UInt8.ofNat c.val) then [92, UInt8.ofNat c.val]
      else [UInt8.ofNat c.val]) = (tokOf (UInt8.ofNat c.val)).text := by decide +kernel

theorem tok_step {c : UInt8} (h : c ≠ 92) :
    globToRegex (if isSpecialChr c then [92, c] else [c]) = (tokOf c).text := by
  have := tok_step_table ⟨c.toNat, c.toNat_lt⟩
  simp only [UInt8.ofNat_toNat] at this
  exact this h

theorem globToRegex_append (s t : Str) : globToRegex (s ++ t) = globToRegex s ++ globToRegex t := by
  simp [globToRegex]

theorem translate (p : Str) (h : 92 ∉ p) :
    globToRegex (sanitize p) = (p.map tokOf).flatMap Tok.text := by
  induction p with
  | nil => rfl
  | cons c p ih =>
    simp only [List.mem_cons, not_or] at h
    have hc : sanitize (c :: p) = (if isSpecialChr c then [92, c] else [c]) ++ sanitize p := by
      simp [sanitize]
    rw [hc, globToRegex_append, tok_step (fun e => h.1 e.symm), ih h.2]
    simp

theorem tok_valid_table : ∀ c : Fin 256, UInt8.ofNat c.val ≠ 92 → UInt8.ofNat c.val ≠ 0 →
    UInt8.ofNat c.val ≠ 42 → UInt8.ofNat c.val ≠ 63 → isSpecialChr (UInt8.ofNat c.val) = false →
    UInt8.ofNat c.val ∉ syntaxChars := by decide +kernel

theorem tok_valid {c : UInt8} (h : c ≠ 92) (h0 : c ≠ 0) : (tokOf c).Valid := by
  unfold tokOf
  split
  · trivial
  split
  · trivial
  split
  · next hs => exact (isSpecial_iff c).1 hs
  · next h1 h2 h3 =>
    refine ⟨?_, h0⟩
    have := tok_valid_table ⟨c.toNat, c.toNat_lt⟩
    simp only [UInt8.ofNat_toNat] at this
    exact this h h0 h1 h2 (by simpa using h3)

theorem rxMatch_glob (p s : Str) : RxMatch (p.map tokOf) s ↔ Glob p s := by
  constructor
  · intro h
    generalize hts : p.map tokOf = ts at h
    induction h generalizing p with
    | nil => simp at hts; subst hts; exact .nil
    | ord _ ih =>
      cases p with
      | nil => simp at hts
      | cons x p =>
        simp only [List.map_cons, List.cons.injEq] at hts
        obtain ⟨h1, h2⟩ := hts
        unfold tokOf at h1
        split at h1
        · simp at h1
        split at h1
        · simp at h1
        split at h1
        · simp at h1
        · next n1 n2 _ => simp at h1; subst h1; exact .chr n1 n2 (ih p h2)
    | esc _ ih =>
      cases p with
      | nil => simp at hts
      | cons x p =>
        simp only [List.map_cons, List.cons.injEq] at hts
        obtain ⟨h1, h2⟩ := hts
        unfold tokOf at h1
        split at h1
        · simp at h1
        split at h1
        · simp at h1
        split at h1
        · next n1 n2 _ => simp at h1; subst h1; exact .chr n1 n2 (ih p h2)
        · simp at h1
    | any hc _ ih =>
      cases p with
      | nil => simp at hts
      | cons x p =>
        simp only [List.map_cons, List.cons.injEq] at hts
        obtain ⟨h1, h2⟩ := hts
        unfold tokOf at h1
        split at h1
        · simp at h1
        split at h1
        · next hx => subst hx; exact .quest hc (ih p h2)
        split at h1
        · simp at h1
        · simp at h1
    | star hc _ ih =>
      cases p with
      | nil => simp at hts
      | cons x p =>
        simp only [List.map_cons, List.cons.injEq] at hts
        obtain ⟨h1, h2⟩ := hts
        unfold tokOf at h1
        split at h1
        · next hx => subst hx; exact .star hc (ih p h2)
        split at h1
        · simp at h1
        split at h1
        · simp at h1
        · simp at h1
  · intro h
    induction h with
    | nil => exact .nil
    | star hc _ ih => exact .star hc ih
    | quest hc _ ih => exact .any hc ih
    | chr h1 h2 _ ih =>
      simp only [List.map_cons, tokOf, h1, h2, if_false]
      split
      · exact .esc ih
      · exact .ord ih

/-! ## A concrete lawful regular expression library -/

def notEolB (c : UInt8) : Bool := decide (NotEol c)

/-- `.*` followed by the continuation `k`. -/
def starLoop (k : Str → Bool) : Str → Bool
  | [] => k []
  | c :: s => k (c :: s) || (notEolB c && starLoop k s)

/-- Some prefix matches. -/
def matchPrefix : List Tok → Str → Bool
  | [], _ => true
  | .ord c :: ts, s => match s with
    | x :: s => x == c && matchPrefix ts s
    | [] => false
  | .esc c :: ts, s => match s with
    | x :: s => x == c && matchPrefix ts s
    | [] => false
  | .any :: ts, s => match s with
    | x :: s => notEolB x && matchPrefix ts s
    | [] => false
  | .anyStar :: ts, s => starLoop (matchPrefix ts) s

/-- Some part matches. -/
def rxSearch (ts : List Tok) : Str → Bool
  | [] => matchPrefix ts []
  | c :: s => matchPrefix ts (c :: s) || rxSearch ts s

/-- Parser of the modelled part of the syntax. -/
def parseToks : Str → Option (List Tok)
  | [] => some []
  | [92] => none
  | 92 :: c :: r => if c ∈ escapable then (parseToks r).map (Tok.esc c :: ·) else none
  | 46 :: 42 :: r => (parseToks r).map (Tok.anyStar :: ·)
  | c :: r =>
    if c = 46 then (parseToks r).map (Tok.any :: ·)
    else if c ∈ syntaxChars ∨ c = 0 then none
    else (parseToks r).map (Tok.ord c :: ·)

/-- A concrete library: the modelled part of the syntax; everything else is refused. -/
def stdRegex : RegexLib where
  compile s := match parseToks s with
    | some ts => .ok (rxSearch ts)
    | none => .exc .regexError

theorem starLoop_iff (k : Str → Bool) (s : Str) :
    starLoop k s = true ↔ ∃ a b, s = a ++ b ∧ (∀ c ∈ a, NotEol c) ∧ k b = true := by
  induction s with
  | nil =>
    simp only [starLoop]
    constructor
    · intro h; exact ⟨[], [], rfl, by simp, h⟩
    · rintro ⟨a, b, h, _, hk⟩
      simp at h
      rw [h.2] at hk; exact hk
  | cons x s ih =>
    simp only [starLoop, Bool.or_eq_true, Bool.and_eq_true, notEolB, decide_eq_true_eq, ih]
    constructor
    · rintro (h | ⟨hx, a, b, rfl, ha, hk⟩)
      · exact ⟨[], _, rfl, by simp, h⟩
      · exact ⟨x :: a, b, rfl, by simpa using ⟨hx, ha⟩, hk⟩
    · rintro ⟨a, b, h, ha, hk⟩
      cases a with
      | nil => simp at h; subst h; exact .inl hk
      | cons y a =>
        simp at h
        obtain ⟨rfl, rfl⟩ := h
        exact .inr ⟨ha x (by simp), a, b, rfl, fun c hc => ha c (by simp [hc]), hk⟩

theorem matchPrefix_iff (ts : List Tok) (s : Str) :
    matchPrefix ts s = true ↔ ∃ a b, s = a ++ b ∧ RxMatch ts a := by
  induction ts generalizing s with
  | nil =>
    simp only [matchPrefix, true_iff]
    exact ⟨[], s, rfl, .nil⟩
  | cons t ts ih =>
    cases t with
    | ord c =>
      cases s with
      | nil =>
        simp only [matchPrefix, Bool.false_eq_true, false_iff]
        rintro ⟨a, b, h, hm⟩
        cases hm; simp at h
      | cons x s =>
        simp only [matchPrefix, Bool.and_eq_true, beq_iff_eq, ih]
        constructor
        · rintro ⟨rfl, a, b, rfl, hm⟩; exact ⟨x :: a, b, rfl, .ord hm⟩
        · rintro ⟨a, b, h, hm⟩
          cases hm with
          | ord hm => simp at h; exact ⟨h.1, _, _, h.2, hm⟩
    | esc c =>
      cases s with
      | nil =>
        simp only [matchPrefix, Bool.false_eq_true, false_iff]
        rintro ⟨a, b, h, hm⟩
        cases hm; simp at h
      | cons x s =>
        simp only [matchPrefix, Bool.and_eq_true, beq_iff_eq, ih]
        constructor
        · rintro ⟨rfl, a, b, rfl, hm⟩; exact ⟨x :: a, b, rfl, .esc hm⟩
        · rintro ⟨a, b, h, hm⟩
          cases hm with
          | esc hm => simp at h; exact ⟨h.1, _, _, h.2, hm⟩
    | any =>
      cases s with
      | nil =>
        simp only [matchPrefix, Bool.false_eq_true, false_iff]
        rintro ⟨a, b, h, hm⟩
        cases hm; simp at h
      | cons x s =>
        simp only [matchPrefix, Bool.and_eq_true, notEolB, decide_eq_true_eq, ih]
        constructor
        · rintro ⟨hx, a, b, rfl, hm⟩; exact ⟨x :: a, b, rfl, .any hx hm⟩
        · rintro ⟨a, b, h, hm⟩
          cases hm with
          | any hx hm => simp at h; exact ⟨by rw [h.1]; exact hx, _, _, h.2, hm⟩
    | anyStar =>
      simp only [matchPrefix, starLoop_iff, ih]
      constructor
      · rintro ⟨a, b, rfl, ha, c, d, rfl, hm⟩
        exact ⟨a ++ c, d, by simp, .star ha hm⟩
      · rintro ⟨a, b, rfl, hm⟩
        cases hm with
        | @star s _ t hs hm => exact ⟨s, t ++ b, by simp, hs, t, b, rfl, hm⟩

theorem rxSearch_iff (ts : List Tok) (s : Str) :
    rxSearch ts s = true ↔ ∃ a b c, s = a ++ b ++ c ∧ RxMatch ts b := by
  induction s with
  | nil =>
    simp only [rxSearch, matchPrefix_iff]
    constructor
    · rintro ⟨a, b, h, hm⟩; exact ⟨[], a, b, by simpa using h, hm⟩
    · rintro ⟨a, b, c, h, hm⟩
      simp at h
      exact ⟨b, c, by simp [h], hm⟩
  | cons x s ih =>
    simp only [rxSearch, Bool.or_eq_true, matchPrefix_iff, ih]
    constructor
    · rintro (⟨a, b, h, hm⟩ | ⟨a, b, c, rfl, hm⟩)
      · exact ⟨[], a, b, by simpa using h, hm⟩
      · exact ⟨x :: a, b, c, rfl, hm⟩
    · rintro ⟨a, b, c, h, hm⟩
      cases a with
      | nil => exact .inl ⟨b, c, by simpa using h, hm⟩
      | cons y a =>
        simp only [List.cons_append, List.cons.injEq] at h
        exact .inr ⟨a, b, c, h.2, hm⟩

theorem text_head (ts : List Tok) (hv : ∀ t ∈ ts, t.Valid) (suffix : Str) (hs : suffix.head? ≠ some 42) :
    (ts.flatMap Tok.text ++ suffix).head? ≠ some 42 := by
  cases ts with
  | nil => simpa using hs
  | cons t ts =>
    have := hv t (by simp)
    cases t with
    | ord c =>
      simp only [Tok.Valid] at this
      simp [Tok.text]
      rintro rfl
      exact this.1 (by decide)
    | esc c => simp [Tok.text]
    | any => simp [Tok.text]
    | anyStar => simp [Tok.text]

theorem parseToks_text (ts : List Tok) (hv : ∀ t ∈ ts, t.Valid) (suffix : Str)
    (hs : suffix.head? ≠ some 42) :
    parseToks (ts.flatMap Tok.text ++ suffix) = (parseToks suffix).map (ts ++ ·) := by
  induction ts with
  | nil => simp
  | cons t ts ih =>
    have ht := hv t (by simp)
    have hv' : ∀ t ∈ ts, t.Valid := fun t h => hv t (by simp [h])
    have ih := ih hv'
    have hh := text_head ts hv' suffix hs
    simp only [List.flatMap_cons, List.append_assoc]
    generalize hrest : ts.flatMap Tok.text ++ suffix = rest at ih hh
    have hmap : ∀ x : Tok, ((parseToks suffix).map (ts ++ ·)).map (x :: ·) =
        (parseToks suffix).map (fun y => x :: (ts ++ y)) := by
      intro x; rw [Option.map_map]; rfl
    cases t with
    | ord c =>
      simp only [Tok.Valid] at ht
      simp only [Tok.text, List.cons_append, List.nil_append]
      have h92 : c ≠ 92 := by rintro rfl; exact ht.1 (by decide)
      have h46 : c ≠ 46 := by rintro rfl; exact ht.1 (by decide)
      have : parseToks (c :: rest) = (parseToks rest).map (Tok.ord c :: ·) := by
        rw [parseToks]
        · simp [h46, ht]
        · rintro rfl; exact absurd rfl h92
        · rintro c' r rfl; exact absurd rfl h92
        · rintro r rfl; exact absurd rfl h46
      rw [this, ih, hmap]
    | esc c =>
      simp only [Tok.Valid] at ht
      simp only [Tok.text, List.cons_append, List.nil_append, parseToks, ht, if_true]
      rw [ih, hmap]
    | any =>
      simp only [Tok.text, List.cons_append, List.nil_append]
      have : parseToks (46 :: rest) = (parseToks rest).map (Tok.any :: ·) := by
        rw [parseToks]
        · simp
        · simp
        · simp
        · rintro r _ rfl; simp at hh
      rw [this, ih, hmap]
    | anyStar =>
      simp only [Tok.text, List.cons_append, List.nil_append, parseToks]
      rw [ih, hmap]

/-- The concrete library satisfies the assumed laws. -/
theorem stdRegex_lawful : LawfulRegex stdRegex where
  compile := by
    intro ts hv
    have := parseToks_text ts hv [] (by simp)
    simp only [List.append_nil, parseToks, Option.map_some] at this
    exact ⟨rxSearch ts, by simp [stdRegex, this], rxSearch_iff ts⟩
  trailing := by
    intro ts hv
    have := parseToks_text ts hv [92] (by simp)
    simp only [parseToks, Option.map_none] at this
    simp [stdRegex, this]
  total := by
    intro s
    simp only [stdRegex]
    cases parseToks s <;> simp

/-! ## Exceptions -/

/-- `bind` of outcomes without foreign exceptions. -/
theorem nf_bind {α β : Type} {x : Res α} {f : α → Res β} {n : Nat} (hx : x ≠ .exc (.foreign n))
    (hf : ∀ a, f a ≠ .exc (.foreign n)) : (x >>= f) ≠ .exc (.foreign n) := by
  cases x with
  | ok a => simpa using hf a
  | exc e => simpa using hx
  | ub s => simp
  | hang => simp

theorem nf_nextPos (l : Nat) (i : Int) (n : Nat) : nextPos l i ≠ .exc (.foreign n) := by
  unfold nextPos; split <;> simp

theorem nf_intSub (a b : Int) (n : Nat) : intSub a b ≠ .exc (.foreign n) := by
  unfold intSub; split <;> simp

theorem nf_intAdd (a b : Int) (n : Nat) : intAdd a b ≠ .exc (.foreign n) := by
  unfold intAdd; split <;> simp

theorem nf_getTail (h : Hist) (k : Int) (r o : Bool) (n : Nat) : getTail h k r o ≠ .exc (.foreign n) :=
  nf_bind (nf_nextPos _ _ _) fun _ => by simp

theorem nf_getRange (h : Hist) (a b c : Int) (r o : Bool) (n : Nat) : getRange h a b c r o ≠ .exc (.foreign n) := by
  unfold getRange
  split
  · simp
  · refine nf_bind (nf_intSub _ _ _) fun _ => nf_bind (nf_nextPos _ _ _) fun _ => ?_
    split
    · exact nf_bind (nf_nextPos _ _ _) fun _ => by simp
    · exact nf_bind (nf_intAdd _ _ _) fun _ => nf_bind (nf_nextPos _ _ _) fun _ => by simp

theorem nf_search {R : RegexLib} (hR : LawfulRegex R) (h : Hist) (p : Str) (r o : Bool) (k : Int) (u : Bool)
    (n : Nat) : search R h p r o k u ≠ .exc (.foreign n) := by
  unfold search
  refine nf_bind ?_ fun _ => nf_bind ?_ fun _ => by simp
  · rcases hR.total (globToRegex (sanitize p)) with ⟨f, h⟩ | h <;> rw [h] <;> simp
  · refine nf_bind (nf_intSub _ _ _) fun _ => ?_
    split
    · exact nf_bind (nf_nextPos _ _ _) fun _ => by simp
    · simp

theorem inMemory_stdOnly {R : RegexLib} (hR : LawfulRegex R) : (inMemory R).StdOnly :=
  ⟨nf_getTail, nf_getRange, nf_search hR⟩

end Xeus
