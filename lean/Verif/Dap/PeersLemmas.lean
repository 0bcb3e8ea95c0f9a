import Verif.Dap.PeersSpec
import Verif.Dap.FramingLemmas

/-!
# Peers of a stream socket: lemmas (no property statements here)
-/

namespace Xeus

open Spec

/-- The same outcome of a read, once with pieces and once with parts. -/
inductive SameRead (as : List Piece) : Read → Read → Prop
  | got (q : List Str) (as' : List Piece) : as' <:+ as → SameRead as (.got q (as'.map Piece.bytes)) (.got q (partsOf as'))
  | thrown (e : Exc) (q : List Str) (as' : List Piece) : as' <:+ as → SameRead as (.thrown e q (as'.map Piece.bytes)) (.thrown e q (partsOf as'))
  | blocked : SameRead as .blocked .blocked
  | endless : SameRead as .endless .endless

theorem SameRead.mono {as as' : List Piece} (h : as' <:+ as) {r r' : Read} (hs : SameRead as' r r') : SameRead as r r' := by
  cases hs with
  | got q x hx => exact .got q x (hx.trans h)
  | thrown e q x hx => exact .thrown e q x (hx.trans h)
  | blocked => exact .blocked
  | endless => exact .endless

theorem partsOf_length (as : List Piece) : as.length ≤ (partsOf as).length := by
  induction as with
  | nil => exact Nat.le_refl _
  | cons a as ih => simp [partsOf] at ih ⊢; omega

theorem awaitFindP_eq (pat : Str) (hint : Nat) (as : List Piece) : ∀ (n : Nat) (pos : Option Nat) (buf : Str), as.length < n →
    (awaitFind pat hint pos buf (as.map Piece.bytes) = none ∧ awaitFindP pat hint n pos buf (partsOf as) = none) ∨
    ∃ p buf' as', as' <:+ as ∧ awaitFind pat hint pos buf (as.map Piece.bytes) = some (p, buf', as'.map Piece.bytes) ∧
      awaitFindP pat hint n pos buf (partsOf as) = some (p, buf', partsOf as') := by
  induction as with
  | nil =>
    intro n pos buf hn
    cases pos with
    | some p => exact .inr ⟨p, buf, [], List.suffix_refl _, by simp [awaitFind], by cases n <;> simp [awaitFindP]⟩
    | none =>
      cases n with
      | zero => exact absurd hn (by simp)
      | succ n => exact .inl ⟨by simp [awaitFind], by simp [awaitFindP, appendTcp, recvPart, partsOf]⟩
  | cons a as ih =>
    intro n pos buf hn
    cases pos with
    | some p => exact .inr ⟨p, buf, a :: as, List.suffix_refl _, by simp [awaitFind], by cases n <;> simp [awaitFindP]⟩
    | none =>
      cases n with
      | zero => exact absurd hn (by simp)
      | succ n =>
        have e : appendTcp buf (partsOf (a :: as)) = some (buf ++ a.bytes, partsOf as) := rfl
        simp only [List.map_cons, awaitFind, awaitFindP, e]
        rcases ih n (findFrom (buf ++ a.bytes) pat hint) (buf ++ a.bytes) (by simpa using hn) with h | ⟨p, b, as', h1, h2, h3⟩
        · exact .inl h
        · exact .inr ⟨p, b, as', h1.trans (List.suffix_cons a as), h2, h3⟩

theorem awaitSizeP_eq (pos size : Nat) (as : List Piece) : ∀ (n : Nat) (buf : Str), as.length < n →
    (awaitSize pos size buf (as.map Piece.bytes) = none ∧ awaitSizeP pos size n buf (partsOf as) = none) ∨
    ∃ buf' as', as' <:+ as ∧ awaitSize pos size buf (as.map Piece.bytes) = some (buf', as'.map Piece.bytes) ∧
      awaitSizeP pos size n buf (partsOf as) = some (buf', partsOf as') := by
  induction as with
  | nil =>
    intro n buf hn
    cases n with
    | zero => exact absurd hn (by simp)
    | succ n =>
      by_cases h : buf.length - pos < size
      · exact .inl ⟨by simp [awaitSize, h], by simp [awaitSizeP, appendTcp, recvPart, partsOf, h]⟩
      · exact .inr ⟨buf, [], List.suffix_refl _, by simp [awaitSize, h], by simp [awaitSizeP, h]⟩
  | cons a as ih =>
    intro n buf hn
    cases n with
    | zero => exact absurd hn (by simp)
    | succ n =>
      have e : appendTcp buf (partsOf (a :: as)) = some (buf ++ a.bytes, partsOf as) := rfl
      by_cases h : buf.length - pos < size
      · simp only [List.map_cons, awaitSize, awaitSizeP, e, h, if_true]
        rcases ih n (buf ++ a.bytes) (by simpa using hn) with h | ⟨b, as', h1, h2, h3⟩
        · exact .inl h
        · exact .inr ⟨b, as', h1.trans (List.suffix_cons a as), h2, h3⟩
      · exact .inr ⟨buf, a :: as, List.suffix_refl _, by simp [awaitSize, h], by simp [awaitSizeP, h]⟩

theorem readLoopP_eq (n : Nat) : ∀ (headerPos : Option Nat) (hint : Nat) (buf : Str) (as : List Piece) (q : List Str),
    SameRead as (readLoop n headerPos hint buf (as.map Piece.bytes) q) (readLoopP n headerPos hint buf (partsOf as) q) := by
  induction n with
  | zero => intro _ _ _ _ _; exact .endless
  | succ n ih =>
    intro headerPos hint buf as q
    simp only [readLoop, readLoopP, readIter, readIterP]
    rcases awaitFindP_eq dapHeader hint as ((partsOf as).length + 1) headerPos buf (Nat.lt_succ_of_le (partsOf_length as)) with
      ⟨h1, h2⟩ | ⟨hp, b1, as1, h0, h1, h2⟩
    · rw [h1, h2]; exact .blocked
    rw [h1, h2]
    dsimp only
    rcases awaitFindP_eq dapSeparator (hp + 16) as1 ((partsOf as1).length + 1) (findFrom b1 dapSeparator (hp + 16)) b1
      (Nat.lt_succ_of_le (partsOf_length as1)) with ⟨h3, h4⟩ | ⟨sp, b2, as2, h5, h3, h4⟩
    · rw [h3, h4]; exact .blocked
    rw [h3, h4]
    dsimp only
    cases stoull (substr b2 (hp + 16) sp) with
    | exc e => exact .thrown e q as2 (h5.trans h0)
    | ub w => exact .blocked
    | hang => exact .blocked
    | ok size =>
      dsimp only
      rcases awaitSizeP_eq (sp + 4) size as2 ((partsOf as2).length + 1) b2 (Nat.lt_succ_of_le (partsOf_length as2)) with
        ⟨h6, h7⟩ | ⟨b3, as3, h8, h6, h7⟩
      · rw [h6, h7]; exact .blocked
      rw [h6, h7]
      dsimp only
      split
      · exact .got _ as3 (h8.trans (h5.trans h0))
      · exact (ih _ _ _ as3 _).mono (h8.trans (h5.trans h0))

theorem readLoop_more (n : Nat) : ∀ (m : Nat) (headerPos : Option Nat) (hint : Nat) (buf : Str) (cs q : List Str), n ≤ m →
    readLoop n headerPos hint buf cs q ≠ .endless → readLoop m headerPos hint buf cs q = readLoop n headerPos hint buf cs q := by
  induction n with
  | zero => intro m _ _ _ _ _ _ h; exact absurd rfl h
  | succ n ih =>
    intro m headerPos hint buf cs q hm h
    cases m with
    | zero => exact absurd hm (by simp)
    | succ m =>
      simp only [readLoop, readIter] at h ⊢
      split at h
      · rfl
      · split at h
        · rfl
        · split at h
          · split at h
            · rfl
            · split at h
              · rename_i hc
                simp only [hc, if_true]
              · rename_i hc
                simp only [hc, if_false]
                exact ih m _ _ _ _ _ (by omega) h
          · rfl
          · rfl

theorem partsOf_flatten (as : List Piece) : (as.map Piece.bytes).flatten.length ≤ (partsOf as).flatten.length := by
  induction as with
  | nil => exact Nat.le_refl _
  | cons a as ih => simp [partsOf] at ih ⊢; omega

theorem handleTcpP_eq (q : List Str) (as : List Piece) : SameRead as (handleTcp q (as.map Piece.bytes)) (handleTcpP q (partsOf as)) := by
  have h := readLoopP_eq ((partsOf as).flatten.length + 1) none 0 [] as q
  rw [readLoop_more ((as.map Piece.bytes).flatten.length + 1) _ _ _ _ _ _ (Nat.succ_le_succ (partsOf_flatten as))
    (handleTcp_counter q (as.map Piece.bytes))] at h
  exact h

end Xeus
