import Verif.Kernels.Sure
import Verif.Kernels.QuerySpec

/-!
# History requests always end and have printable results (no property statements here)
-/

namespace Xeus

open Spec

/-- The computation ends; its value satisfies `P`. -/
def Fine {α : Type} (P : α → Prop) (r : Res α) : Prop := r ≠ .hang ∧ ∀ a, r = .ok a → P a

theorem Fine.ok {α : Type} {P : α → Prop} {a : α} (h : P a) : Fine P (.ok a) :=
  ⟨by simp, fun _ h' => by cases h'; exact h⟩

theorem Fine.bind {α β : Type} {P : α → Prop} {Q : β → Prop} {x : Res α} {f : α → Res β} (hx : Fine P x)
    (hf : ∀ a, P a → Fine Q (f a)) : Fine Q (x >>= f) := by
  cases x with
  | ok a => exact hf a (hx.2 a rfl)
  | exc e => exact ⟨fun h => (by cases h), fun _ h => (by cases h)⟩
  | ub w => exact ⟨fun h => (by cases h), fun _ h => (by cases h)⟩
  | hang => exact absurd rfl hx.1

theorem fine_str (j : Json) (k d : Str) : Fine (fun _ => True) (j.value k Json.getStr d) := by
  rcases value_str_cases j k d with ⟨s, h⟩ | h <;> rw [h] <;> exact ⟨by simp, fun _ _ => trivial⟩

theorem fine_bool (j : Json) (k : Str) (d : Bool) : Fine (fun _ => True) (j.value k Json.getBool d) := by
  rcases value_bool_cases j k d with ⟨s, h⟩ | h <;> rw [h] <;> exact ⟨by simp, fun _ _ => trivial⟩

theorem fine_int (j : Json) (k : String) (d : Int) : Fine (fun _ => True) (j.value (lit k) Json.getInt d) := by
  rcases value_int_cases j k d with ⟨s, h⟩ | h | ⟨_, _, h⟩ <;> rw [h] <;> exact ⟨by simp, fun _ _ => trivial⟩

theorem fine_next (n : Nat) (i : Int) : Fine (fun _ => True) (nextPos n i) := by
  unfold nextPos; split <;> exact ⟨by simp, fun _ _ => trivial⟩

theorem fine_sub (a b : Int) : Fine (fun _ => True) (intSub a b) := by
  unfold intSub; split <;> exact ⟨by simp, fun _ _ => trivial⟩

theorem fine_add (a b : Int) : Fine (fun _ => True) (intAdd a b) := by
  unfold intAdd; split <;> exact ⟨by simp, fun _ _ => trivial⟩

theorem digitChr_ascii (n : Nat) : digitChr (n % 10) ≤ 0x7F := by
  have : ∀ k : Fin 10, digitChr k.val ≤ 0x7F := by decide
  exact this ⟨n % 10, by omega⟩

theorem digitsAux_ascii (f n : Nat) (acc : Str) (h : ∀ b ∈ acc, b ≤ 0x7F) : ∀ b ∈ digitsAux f n acc, b ≤ 0x7F := by
  induction f generalizing n acc with
  | zero => exact h
  | succ f ih =>
    unfold digitsAux
    have h' : ∀ b ∈ digitChr (n % 10) :: acc, b ≤ 0x7F := by
      intro b hb
      rcases List.mem_cons.1 hb with rfl | hb
      · exact digitChr_ascii n
      · exact h b hb
    split
    · exact h'
    · exact ih _ _ h'

theorem intToString_utf8 (i : Int) : Utf8 (intToString i) := by
  refine utf8_ascii ?_
  have := digitsAux_ascii (i.natAbs + 1) i.natAbs [] (by simp)
  unfold intToString natDigits
  split
  · intro b hb
    rcases List.mem_cons.1 hb with rfl | hb
    · decide
    · exact this b hb
  · exact this

theorem HistOk.store {h : Hist} (hh : HistOk h) (a b : Int) {i o : Str} (hi : Utf8 i) (ho : Utf8 o) :
    HistOk (storeInputs h a b i o) := by
  intro e he
  rcases List.mem_append.1 he with he | he
  · exact hh e he
  · rw [List.mem_singleton] at he
    subst he
    exact ⟨intToString_utf8 _, intToString_utf8 _, hi, ho⟩

/-- All texts are UTF-8. -/
def Rows (l : List (List Str)) : Prop := ∀ r ∈ l, ∀ s ∈ r, Utf8 s

theorem rows_proj {h : Hist} (hh : HistOk h) (o : Bool) : ∀ e ∈ h, ∀ s ∈ projEntry o e, Utf8 s := by
  intro e he s hs
  obtain ⟨h1, h2, h3, h4⟩ := hh e he
  unfold projEntry at hs
  split at hs <;> simp only [List.mem_cons, List.not_mem_nil, or_false] at hs
  · rcases hs with rfl | rfl | rfl | rfl <;> assumption
  · rcases hs with rfl | rfl | rfl <;> assumption

theorem Rows.map {h : Hist} (hh : HistOk h) (o : Bool) {l : Hist} (hl : ∀ e ∈ l, e ∈ h) : Rows (l.map (projEntry o)) := by
  intro r hr
  obtain ⟨e, he, rfl⟩ := List.mem_map.1 hr
  exact rows_proj hh o e (hl e he)

theorem foldl_rows (o : Bool) (l : Hist) (acc : List (List Str)) :
    l.foldl (fun acc e => projEntry o e :: acc) acc = (l.map (projEntry o)).reverse ++ acc := by
  induction l generalizing acc with
  | nil => rfl
  | cons e l ih => simp [ih]

theorem canonL_map {α : Type} (f : α → Json) (l : List α) (h : ∀ a ∈ l, (f a).canon = true) : Json.canonL (l.map f) = true := by
  induction l with
  | nil => rfl
  | cons a l ih =>
    simp only [List.map_cons, Json.canonL, Bool.and_eq_true]
    exact ⟨h a (by simp), ih fun b hb => h b (by simp [hb])⟩

theorem histReply_printable {l : List (List Str)} (hl : Rows l) (eh : ErrH) : Printable eh (histReply l) := by
  have h1 : Printable eh (entriesJson l) := by
    refine ⟨?_, fun _ => .arr ?_⟩
    · show Json.canonL _ = true
      refine canonL_map _ _ fun r _ => ?_
      show Json.canonL _ = true
      exact canonL_map _ _ fun s _ => by simp [Json.canon]
    intro v hv
    obtain ⟨r, hr, rfl⟩ := List.mem_map.1 hv
    refine .arr fun v hv => ?_
    obtain ⟨s, hs, rfl⟩ := List.mem_map.1 hv
    exact .str (hl r hr s hs)
  exact printable_put (printable_put ⟨by decide, fun _ => .null⟩ (utf8_lit (by decide)) h1) (utf8_lit (by decide))
    (str_printable fun _ => utf8_lit (by decide))

theorem uniqueLoop_sub {α : Type} [DecidableEq α] (l : List α) : ∀ x : α, ∀ y ∈ uniqueLoop x l, y ∈ l := by
  induction l with
  | nil => intro x y hy; exact hy
  | cons a l ih =>
    intro x y hy
    unfold uniqueLoop at hy
    split at hy
    · exact List.mem_cons_of_mem _ (ih _ _ hy)
    · rcases List.mem_cons.1 hy with rfl | hy
      · simp
      · exact List.mem_cons_of_mem _ (ih _ _ hy)

theorem stdUnique_sub {α : Type} [DecidableEq α] (l : List α) : ∀ y ∈ stdUnique l, y ∈ l := by
  cases l with
  | nil => exact fun _ h => h
  | cons a l =>
    intro y hy
    rcases List.mem_cons.1 hy with rfl | hy
    · simp
    · exact List.mem_cons_of_mem _ (uniqueLoop_sub _ _ _ hy)

theorem fine_clean {l : List (List Str)} (hl : Rows l) (n : Int) (u : Bool) : Fine Rows (cleanHistory l n u) := by
  unfold cleanHistory
  have h1 : Rows (if u = true then stdUnique l else l) := by
    split
    · exact fun r hr => hl r (stdUnique_sub _ _ hr)
    · exact hl
  refine Fine.bind (fine_sub _ _) fun _ _ => ?_
  split
  · exact Fine.bind (fine_next _ _) fun k _ => Fine.ok fun r hr => h1 r (List.mem_of_mem_drop hr)
  · exact Fine.ok h1

theorem fine_tail {h : Hist} (hh : HistOk h) (eh : ErrH) (n : Int) (r o : Bool) : Fine (Printable eh) (getTail h n r o) := by
  refine Fine.bind (fine_next _ _) fun k _ => Fine.ok (histReply_printable ?_ eh)
  rw [foldl_rows, List.append_nil]
  intro x hx
  rw [List.mem_reverse] at hx
  exact Rows.map hh o (fun e he => List.mem_reverse.1 (List.mem_of_mem_take he)) x hx

theorem fine_range {h : Hist} (hh : HistOk h) (eh : ErrH) (s a b : Int) (r o : Bool) :
    Fine (Printable eh) (getRange h s a b r o) := by
  unfold getRange
  split
  · exact Fine.ok (printable_put (printable_put (printable_put ⟨by decide, fun _ => .null⟩ (utf8_lit (by decide))
      (str_printable fun _ => utf8_lit (by decide))) (utf8_lit (by decide)) (str_printable fun _ => utf8_lit (by decide)))
      (utf8_lit (by decide)) (str_printable fun _ => utf8_lit (by decide)))
  · refine Fine.bind (fine_sub _ _) fun _ _ => Fine.bind (fine_next _ _) fun _ _ => ?_
    split
    · exact Fine.bind (fine_next _ _) fun _ _ => Fine.ok (histReply_printable
        (Rows.map hh _ fun e he => List.mem_of_mem_drop (List.mem_of_mem_take he)) eh)
    · exact Fine.bind (fine_add _ _) fun _ _ => Fine.bind (fine_next _ _) fun _ _ => Fine.ok (histReply_printable
        (Rows.map hh _ fun e he => List.mem_of_mem_drop (List.mem_of_mem_take he)) eh)

theorem fine_search {R : RegexLib} (hR : LawfulRegex R) {h : Hist} (hh : HistOk h) (eh : ErrH) (p : Str) (r o : Bool) (n : Int)
    (u : Bool) : Fine (Printable eh) (search R h p r o n u) := by
  unfold search
  refine Fine.bind (P := fun _ => True) ?_ fun f _ => ?_
  · rcases hR.total (globToRegex (sanitize p)) with ⟨f, h⟩ | h <;> rw [h] <;> exact ⟨by simp, fun _ _ => trivial⟩
  · exact Fine.bind (fine_clean (Rows.map hh _ fun e he => (List.mem_filter.1 he).1) _ _) fun l hl =>
      Fine.ok (histReply_printable hl eh)

theorem fine_history {R : RegexLib} (hR : LawfulRegex R) {h : Hist} (hh : HistOk h) (eh : ErrH) (c : Json) :
    Fine (Printable eh) (historyRequest (inMemory R) h c) := by
  simp only [historyRequest, inMemory]
  refine Fine.bind (fine_str _ _ _) fun a _ => Fine.bind (P := Printable eh) ?_ fun j hj => Fine.bind (P := Printable eh) ?_
    fun j' hj' => ?_
  · split
    · exact Fine.bind (fine_int _ _ _) fun _ _ => Fine.bind (fine_bool _ _ _) fun _ _ => Fine.bind (fine_bool _ _ _) fun _ _ =>
        fine_tail hh eh _ _ _
    · exact Fine.ok ⟨by decide, fun _ => .null⟩
  · split
    · exact Fine.bind (fine_str _ _ _) fun _ _ => Fine.bind (fine_bool _ _ _) fun _ _ => Fine.bind (fine_bool _ _ _) fun _ _ =>
        Fine.bind (fine_int _ _ _) fun _ _ => Fine.bind (fine_bool _ _ _) fun _ _ => fine_search hR hh eh _ _ _ _ _
    · exact Fine.ok hj
  · split
    · exact Fine.bind (fine_int _ _ _) fun _ _ => Fine.bind (fine_int _ _ _) fun _ _ => Fine.bind (fine_int _ _ _) fun _ _ =>
        Fine.bind (fine_bool _ _ _) fun _ _ => Fine.bind (fine_bool _ _ _) fun _ _ => fine_range hh eh _ _ _ _ _
    · exact Fine.ok hj'

end Xeus
