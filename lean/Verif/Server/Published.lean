import Verif.Server.PublishedSpec
import Verif.Server.Split

/-!
# What was published: lemmas (no property statements here)
-/

namespace Xeus

open Spec

theorem wiresOf_eq (es : List Ev) : wiresOf es = pubsOf es := by
  induction es with
  | nil => rfl
  | cons e es ih => cases e <;> simp [wiresOf, pubsOf] <;> exact ih

theorem wiresOn_eq (k : Chan) (es : List Ev) : wiresOn k es = pubsOn k es := by
  induction es with
  | nil => rfl
  | cons e es ih =>
    cases e with
    | pub c m w =>
      have hc : publishSocket c = c := by cases c <;> rfl
      rw [pubsOn, hc, ← ih]
      simp only [wiresOn, List.filterMap_cons]
      by_cases h : c = k <;> simp [h]
    | _ => simp only [pubsOn, ← ih]; rfl

end Xeus
