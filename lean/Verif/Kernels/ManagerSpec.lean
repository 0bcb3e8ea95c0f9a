import Verif.Kernels.WholeSpec
import Verif.Server.TranscriptSpec

/-!
# Kernels with a history manager of their own: specification (C114)
-/

namespace Xeus.Spec

open Xeus

/-- The answers of the manager are values of `nl::json`. -/
def ProperManager (M : HistoryManager) : Prop := ∀ h (Q : Query) j, Q.ask M h = .ok j → j.canon = true

/-- The messages handled, what was done for them, and the inputs stored, `h₀` being those stored before: an input is stored for each execute request
that is to be stored and was replied to; a history request is replied to by the answer of the manager to its question, which depends on the
inputs stored before. -/
inductive Chronicle (env : Env) (M : HistoryManager) (h₀ : Hist) : List (Chan × Multipart) → List Ev → Hist → Prop
  | nil : Chronicle env M h₀ [] [] h₀
  | refused {l es h} (c : Chan) (q : Multipart) : Chronicle env M h₀ l es h → Refused env.C env.J env.auth q →
      Chronicle env M h₀ (l ++ [(c, q)]) es h
  | stored {l es h} (c : Chan) (q : Multipart) (m : XMessage) (blk : List Ev) (e : HEntry) : Chronicle env M h₀ l es h →
      Accepted env.C env.J env.auth q m → Block env m c blk → Storable m e → repliesIn blk ≠ [] →
      Chronicle env M h₀ (l ++ [(c, q)]) (es ++ blk) (h ++ [e])
  | other {l es h} (c : Chan) (q : Multipart) (m : XMessage) (blk : List Ev) : Chronicle env M h₀ l es h →
      Accepted env.C env.J env.auth q m → ¬ IsReq m .history → Block env m c blk → ((∀ e, ¬ Storable m e) ∨ repliesIn blk = []) →
      Chronicle env M h₀ (l ++ [(c, q)]) (es ++ blk) h
  | answered {l es h} (c : Chan) (q : Multipart) (m : XMessage) (Q : Query) (j : Json) (b rep i : Ev) : Chronicle env M h₀ l es h →
      Accepted env.C env.J env.auth q m → IsReq m .history → Asks m.body.content Q → Q.ask M h = .ok j → (env.eh = .strict → JsonUtf8 j) →
      IsStatus env c "busy" m.body.header b → IsReplyWith env c m.ids m.body.header (lit "history_reply") (.obj []) j rep →
      IsStatus env c "idle" m.body.header i → Chronicle env M h₀ (l ++ [(c, q)]) (es ++ [b, rep, i]) h
  | nothing {l es h} (c : Chan) (q : Multipart) (m : XMessage) (b rep i : Ev) : Chronicle env M h₀ l es h →
      Accepted env.C env.J env.auth q m → IsReq m .history → AsksNothing m.body.content →
      IsStatus env c "busy" m.body.header b → IsReplyWith env c m.ids m.body.header (lit "history_reply") (.obj []) .null rep →
      IsStatus env c "idle" m.body.header i → Chronicle env M h₀ (l ++ [(c, q)]) (es ++ [b, rep, i]) h
  | unanswered {l es h} (c : Chan) (q : Multipart) (m : XMessage) (b i : Ev) : Chronicle env M h₀ l es h →
      Accepted env.C env.J env.auth q m → IsReq m .history →
      HistBad m.body.content ∨ (∃ Q, Asks m.body.content Q ∧
        ((∃ e, Q.ask M h = .exc e) ∨ ∃ j, Q.ask M h = .ok j ∧ env.eh = .strict ∧ ¬ JsonUtf8 j)) →
      IsStatus env c "busy" m.body.header b → IsStatus env c "idle" m.body.header i →
      Chronicle env M h₀ (l ++ [(c, q)]) (es ++ [b, i]) h

end Xeus.Spec
