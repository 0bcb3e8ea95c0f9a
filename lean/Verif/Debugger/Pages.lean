import Verif.Debugger.Answers

/-!
# The debugger: cutting and paging of answers
-/

namespace Xeus.Dbg

open Xeus Spec K

/-! ## Writing through a reference -/

theorem sortedBy_of {l : List (Str × Json)} (h : Json.sortedKeys l = true) : SortedBy l := by
  induction l with
  | nil => exact .nil
  | cons x xs ih =>
    have ht := ih (Json.sortedKeys_tail h)
    refine List.pairwise_cons.2 ⟨fun y hy => ?_, ht⟩
    cases xs with
    | nil => cases hy
    | cons z zs =>
      obtain ⟨kx, vx⟩ := x
      obtain ⟨kz, vz⟩ := z
      have hlt : strLt kx kz = true := by simp [Json.sortedKeys] at h; exact h.1
      rcases List.mem_cons.1 hy with rfl | hy
      · exact hlt
      · exact strLt_trans hlt ((List.pairwise_cons.1 ht).1 y hy)

theorem insertKV_same {k : Str} {v : Json} {l : List (Str × Json)} (hs : SortedBy l) (h : Json.lookup k l = some v) :
    Json.insertKV k v l = l := by
  induction l with
  | nil => cases h
  | cons x xs ih =>
    obtain ⟨kx, vx⟩ := x
    unfold SortedBy at hs
    rw [List.pairwise_cons] at hs
    simp only [Json.lookup] at h
    simp only [Json.insertKV]
    by_cases hk : k = kx
    · subst hk
      simp only [if_true, Option.some.injEq] at h
      simp [h]
    · rw [if_neg (Ne.symm hk)] at h
      have hm := (mem_iff_lookup hs.2 k v).2 h
      have hlt := hs.1 _ hm
      simp only at hlt
      simp only [hk, if_false, strLt_asymm hlt, Bool.false_eq_true, ih hs.2 h]

theorem canon_obj {kvs : List (Str × Json)} (h : (Json.obj kvs).canon = true) :
    SortedBy kvs ∧ ∀ k v, Json.lookup k kvs = some v → v.canon = true := by
  simp only [Json.canon, Bool.and_eq_true] at h
  refine ⟨sortedBy_of h.1, fun k v hl => ?_⟩
  have hO := h.2
  clear h
  induction kvs with
  | nil => cases hl
  | cons x xs ih =>
    obtain ⟨kx, vx⟩ := x
    simp only [Json.canonO, Bool.and_eq_true] at hO
    simp only [Json.lookup] at hl
    split at hl
    · cases hl; exact hO.1
    · exact ih hl hO.2

theorem canon_find {j v : Json} {k : Str} (h : j.canon = true) (hf : j.find? k = some v) : v.canon = true := by
  cases j <;> simp [Json.find?] at hf
  exact (canon_obj h).2 k v hf

theorem canon_elem {xs : List Json} (h : (Json.arr xs).canon = true) : ∀ x ∈ xs, x.canon = true := by
  simp only [Json.canon] at h
  induction xs with
  | nil => simp
  | cons y ys ih =>
    simp only [Json.canonL, Bool.and_eq_true] at h
    intro x hx
    rcases List.mem_cons.1 hx with rfl | hx
    · exact h.1
    · exact ih h.2 x hx

/-- Access to a member that is there. -/
theorem atKey_found {α : Type} {k : Str} {f : Json → Res (α × Json)} {j v : Json} (h : j.find? k = some v) :
    atKey k f j = (do let (a, w) ← f v; return (a, j.put k w)) := by
  cases j <;> simp [Json.find?] at h
  simp only [atKey, h, Option.getD_some, Json.put]

theorem put_same {j v : Json} {k : Str} (hj : j.canon = true) (h : j.find? k = some v) : j.put k v = j := by
  cases j <;> simp [Json.find?] at h
  simp only [Json.put, insertKV_same (canon_obj hj).1 h]

theorem atKey_ok {α : Type} {k : Str} {f : Json → Res (α × Json)} {j v w : Json} {a : α} (h : j.find? k = some v)
    (hf : f v = .ok (a, w)) : atKey k f j = .ok (a, j.put k w) := by
  rw [atKey_found h, hf]; rfl

theorem atKey_exc {α : Type} {k : Str} {f : Json → Res (α × Json)} {j v : Json} {e : Exc} (h : j.find? k = some v)
    (hf : f v = .exc e) : atKey k f j = .exc e := by
  rw [atKey_found h, hf]; rfl

theorem atKey_ub {α : Type} {k : Str} {f : Json → Res (α × Json)} {j v : Json} {e : String} (h : j.find? k = some v)
    (hf : f v = .ub e) : atKey k f j = .ub e := by
  rw [atKey_found h, hf]; rfl

/-- Replacing the value of a member of a member. -/
theorem replaced_put {j b w : Json} {k₁ k₂ : Str} (h₁ : j.find? k₁ = some b) :
    Replaced j (j.put k₁ (b.put k₂ w)) k₁ k₂ w := by
  refine ⟨.member (v := b.put k₂ w) ?_ (.member ?_ .here), fun k hk => ?_, b, b.put k₂ w, h₁, ?_, fun k hk => ?_⟩
  · rw [Json.find?_put]; simp
  · rw [Json.find?_put]; simp
  · rw [Json.find?_put]; simp [Ne.symm hk]
  · rw [Json.find?_put]; simp
  · rw [Json.find?_put]; simp [Ne.symm hk]

/-! ## Stack frames -/

theorem framePath_found {x p : Json} (hx : x.canon = true) (h : At x [lit "source", lit "path"] p) :
    framePath x = .ok (p, x) := by
  obtain ⟨s, hs, h⟩ := at_cons.1 h
  obtain ⟨p', hp, h⟩ := at_cons.1 h
  rw [at_nil] at h
  subst h
  have hsc := canon_find hx hs
  unfold framePath
  rw [atKey_ok hs (atKey_ok hp rfl), put_same hsc hp, put_same hx hs]

theorem cutFrames_none {xs : List Json} (hc : ∀ x ∈ xs, x.canon = true)
    (h : ∀ x ∈ xs, ∃ p, At x [lit "source", lit "path"] p ∧ p ≠ .str (lit "<string>")) : cutFrames xs = .ok xs := by
  induction xs with
  | nil => rfl
  | cons x xs ih =>
    obtain ⟨p, hp, hne⟩ := h x List.mem_cons_self
    have h1 : isText p "<string>" = false := by simp [isText, hne]
    rw [cutFrames, framePath_found (hc x List.mem_cons_self) hp]
    simp only [Res.bind_ok, h1, Bool.false_eq_true, if_false,
      ih (fun y hy => hc y (List.mem_cons_of_mem _ hy)) fun y hy => h y (List.mem_cons_of_mem _ hy)]
    rfl

theorem cutFrames_first {pre post : List Json} {f : Json} (hc : ∀ x ∈ pre ++ f :: post, x.canon = true)
    (h : ∀ x ∈ pre, ∃ p, At x [lit "source", lit "path"] p ∧ p ≠ .str (lit "<string>"))
    (hf : At f [lit "source", lit "path"] (.str (lit "<string>"))) : cutFrames (pre ++ f :: post) = .ok (pre ++ post) := by
  induction pre with
  | nil =>
    have h1 : isText (.str (lit "<string>")) "<string>" = true := by simp [isText]
    rw [List.nil_append, cutFrames, framePath_found (hc f (by simp)) hf]
    simp only [Res.bind_ok, h1, if_true]
    rfl
  | cons x xs ih =>
    obtain ⟨p, hp, hne⟩ := h x List.mem_cons_self
    have h1 : isText p "<string>" = false := by simp [isText, hne]
    rw [List.cons_append, cutFrames, framePath_found (hc x (by simp)) hp]
    simp only [Res.bind_ok, h1, Bool.false_eq_true, if_false,
      ih (fun y hy => hc y (by simp at hy ⊢; exact .inr hy)) fun y hy => h y (List.mem_cons_of_mem _ hy)]
    rfl

theorem cutReply_found {reply : Json} {fs fs' : List Json} (h : At reply [lit "body", lit "stackFrames"] (.arr fs))
    (hf : cutFrames fs = .ok fs') :
    ∃ b, reply.find? (lit "body") = some b ∧ b.find? (lit "stackFrames") = some (.arr fs) ∧
      cutReply reply = .ok (reply.put (lit "body") (b.put (lit "stackFrames") (.arr fs'))) := by
  obtain ⟨b, hb, h⟩ := at_cons.1 h
  obtain ⟨v, hv, h⟩ := at_cons.1 h
  rw [at_nil] at h
  subst h
  refine ⟨b, hb, hv, ?_⟩
  have hs : cutStack (.arr fs) = .ok ((), .arr fs') := by simp only [cutStack, hf, Res.bind_ok]; rfl
  unfold cutReply
  rw [atKey_ok hb (atKey_ok hv hs)]
  rfl

/-! ## Variables -/

theorem pageLoop_ok {vs : List Json} {i n : Nat} (h : i + n ≤ vs.length) :
    pageLoop (.arr vs) i n = .ok ((vs.drop i).take n) := by
  induction n generalizing i with
  | zero => simp [pageLoop]
  | succ n ih =>
    have hi : i < vs.length := by omega
    have h1 : elemAt (.arr vs) i = .ok vs[i] := by
      have h2 : ¬ ((i : Int) < 0) := by omega
      simp only [elemAt, h2, if_false, Int.toNat_natCast, List.getElem?_eq_getElem hi]
    have h2 : ((i : Int) + 1) = ((i + 1 : Nat) : Int) := by omega
    simp only [pageLoop, h1, Res.bind_ok, h2, ih (i := i + 1) (by omega)]
    show Res.ok _ = Res.ok _
    rw [List.drop_eq_getElem_cons hi, List.take_succ_cons]

theorem pageLoop_beyond {vs : List Json} {i n : Nat} (hn : n ≠ 0) (h : vs.length < i + n) :
    pageLoop (.arr vs) i n = .exc .outOfRange := by
  induction n generalizing i with
  | zero => exact absurd rfl hn
  | succ n ih =>
    by_cases hi : i < vs.length
    · have h1 : elemAt (.arr vs) i = .ok vs[i] := by
        have h2 : ¬ ((i : Int) < 0) := by omega
        simp only [elemAt, h2, if_false, Int.toNat_natCast, List.getElem?_eq_getElem hi]
      have h2 : ((i : Int) + 1) = ((i + 1 : Nat) : Int) := by omega
      simp only [pageLoop, h1, Res.bind_ok, h2, ih (i := i + 1) (by omega) (by omega)]
      rfl
    · have h1 : elemAt (.arr vs) i = .exc .outOfRange := by
        have h2 : ¬ ((i : Int) < 0) := by omega
        have h3 : vs[i]? = none := List.getElem?_eq_none (by omega)
        simp only [elemAt, h2, if_false, Int.toNat_natCast, h3]
      simp only [pageLoop, h1]
      rfl

theorem pageLoop_negative {vs : List Json} {i : Int} {n : Nat} (hn : n ≠ 0) (h : i < 0) :
    pageLoop (.arr vs) i n = .exc .outOfRange := by
  cases n with
  | zero => exact absurd rfl hn
  | succ n =>
    have h1 : elemAt (.arr vs) i = .exc .outOfRange := by simp only [elemAt, h, if_true]
    simp only [pageLoop, h1]
    rfl

/-- The whole of `pageList` on a list that is not absurdly long. -/
theorem pageList_eq {vs : List Json} {start count e : Int} (hlen : InInt vs.length) (hov : InInt (start + count))
    (he : e = if count = 0 then (vs.length : Int) else start + count) :
    pageList start count (.arr vs) =
      if e ≤ start then .ok ((), .null)
      else if 0 ≤ start ∧ e ≤ vs.length then .ok ((), .arr ((vs.drop start.toNat).take (e - start).toNat))
      else .exc .outOfRange := by
  have hend : pageEnd start count (.arr vs) = .ok e := by
    unfold pageEnd
    by_cases h : count = 0
    · rw [he, if_pos h, if_pos h]; simp only [size]; rw [wrap32_id hlen]
    · rw [he, if_neg h, if_neg h, if_pos hov]
  unfold pageList
  simp only [hend, Res.bind_ok]
  split
  · rename_i h
    have h0 : (e - start).toNat = 0 := by omega
    rw [h0]
    rfl
  · rename_i h
    have hn : (e - start).toNat ≠ 0 := by omega
    by_cases hneg : start < 0
    · rw [if_neg (by omega), pageLoop_negative hn hneg]
      rfl
    · obtain ⟨i, rfl⟩ : ∃ i : Nat, start = i := ⟨start.toNat, by omega⟩
      by_cases hle : e ≤ vs.length
      · rw [if_pos (by omega), pageLoop_ok (by omega)]
        have hne : (vs.drop i).take (e - i).toNat ≠ [] := by
          intro hc
          have := congrArg List.length hc
          simp only [List.length_take, List.length_drop, List.length_nil] at this
          omega
        simp only [Res.bind_ok, Int.toNat_natCast]
        cases hx : (vs.drop i).take (e - i).toNat with
        | nil => exact absurd hx hne
        | cons y ys => rfl
      · rw [if_neg (by omega), pageLoop_beyond hn (by omega)]
        rfl

theorem pageReply_found {reply : Json} {vs : List Json} {start count : Int}
    (h : At reply [lit "body", lit "variables"] (.arr vs)) (hov : InInt (start + count)) :
    ∃ b, reply.find? (lit "body") = some b ∧ b.find? (lit "variables") = some (.arr vs) ∧
      (∀ w, pageList start count (.arr vs) = .ok ((), w) →
        pageReply start count reply = .ok (reply.put (lit "body") (b.put (lit "variables") w))) ∧
      (∀ e, pageList start count (.arr vs) = .exc e → pageReply start count reply = .exc e) := by
  obtain ⟨b, hb, h⟩ := at_cons.1 h
  obtain ⟨v, hv, h⟩ := at_cons.1 h
  rw [at_nil] at h
  subst h
  have hno : ¬ (count ≠ 0 ∧ ¬ InInt (start + count)) := fun hc => hc.2 hov
  refine ⟨b, hb, hv, fun w hw => ?_, fun e he => ?_⟩
  · unfold pageReply
    rw [if_neg hno, atKey_ok hb (atKey_ok hv hw)]
    rfl
  · unfold pageReply
    rw [if_neg hno, atKey_exc hb (atKey_exc hv he)]
    rfl

end Xeus.Dbg
