import Verif.Clock.ConcLemmas
import Verif.Clock.Props

/-!
# Property C99: dates made by several threads

Only the property theorems and the `example`s that instantiate their hypotheses.
-/

namespace Xeus

open Clock Clock.Spec

/-- C99: whatever the threads do, the fraction of a date is that of the instant of the call, and each of the other fields is that
of the instant of the call or of a call of another thread that overlaps it. -/
theorem C99_mixture (gmtime : Nat → Utc) (s : Dates) (h : Dates.Reach gmtime s) (before during : List Call) (i now : Nat) (text : Str)
    (hm : Made s.log before during i now text) :
    ∃ t : Utc, text = putTime t ++ lit "." ++ natDigits (now / 1000 % 1000000) ++ lit "Z" ∧
      ∀ p, ∃ n, (n = now ∨ Overlaps before during n) ∧ t.get p = (gmtime (n / 1000000000)).get p :=
  (dinv_reach h).past before during i now text hm

/-- C99: so the date is right if all calls that overlap it are made within the same second. -/
theorem C99_same_second (gmtime : Nat → Utc) (s : Dates) (h : Dates.Reach gmtime s) (before during : List Call) (i now : Nat)
    (text : Str) (hm : Made s.log before during i now text)
    (hsame : ∀ n, Overlaps before during n → n / 1000000000 = now / 1000000000) : text = iso8601 gmtime now := by
  obtain ⟨t, h1, h2⟩ := C99_mixture gmtime s h before during i now text hm
  have key : ∀ p, t.get p = (gmtime (now / 1000000000)).get p := by
    intro p
    obtain ⟨n, hn, hv⟩ := h2 p
    rcases hn with rfl | hn
    · exact hv
    · rw [hv, hsame n hn]
  have e : t = gmtime (now / 1000000000) := by
    obtain ⟨a, b, c, d, e, f⟩ := t
    have h1 := key .year
    have h2 := key .month
    have h3 := key .day
    have h4 := key .hour
    have h5 := key .minute
    have h6 := key .second
    simp only [Utc.get] at h1 h2 h3 h4 h5 h6
    rw [h1, h2, h3, h4, h5, h6]
  rw [h1, e]
  rfl

/-- C99: in particular if no call overlaps it, as in the default server. -/
theorem C99_alone (gmtime : Nat → Utc) (s : Dates) (h : Dates.Reach gmtime s) (before : List Call) (i now : Nat)
    (text : Str) (hm : Made s.log before [] i now text) (hb : ∀ j n, ¬ Running before j n) : text = iso8601 gmtime now :=
  C99_same_second gmtime s h before [] i now text hm fun n hn => by
    rcases hn with ⟨j, hj⟩ | ⟨j, hj⟩
    · exact absurd hj (hb j n)
    · simp at hj

/-! ## Executions -/

namespace Clock

/-- Which thread acts next; `start` if it begins a call. -/
inductive Turn where
  | start (i now : Nat)
  | go (i : Nat)

/-- One step; `gmtime` writes the fields in the order in which they are declared. -/
def turn (gmtime : Nat → Utc) (s : Dates) : Turn → Dates
  | .start i now => match s.pc i with
    | .idle => { s with pc := put s.pc i (.fill now Part.all), log := s.log ++ [.began i now] }
    | _ => s
  | .go i => match s.pc i with
    | .idle => s
    | .fill now [] => { s with pc := put s.pc i (.print now Part.all fun _ => 0) }
    | .fill now (p :: r) => { s with pc := put s.pc i (.fill now ((p :: r).filter (· ≠ p))),
                                     buf := put s.buf p ((gmtime (now / 1000000000)).get p) }
    | .print now [] got => { s with pc := put s.pc i .idle, log := s.log ++ [.ended i (textOf (gather got) now)] }
    | .print now (p :: todo) got => { s with pc := put s.pc i (.print now todo (put got p (s.buf p))) }

theorem turn_reach {gmtime : Nat → Utc} {s : Dates} (h : Dates.Reach gmtime s) (t : Turn) : Dates.Reach gmtime (turn gmtime s t) := by
  cases t with
  | start i now =>
    unfold turn
    simp only
    split
    · rename_i hp; exact h.step (.start s i now hp)
    · exact h
  | go i =>
    unfold turn
    simp only
    split
    · exact h
    · rename_i hp; exact h.step (.written s i _ hp)
    · rename_i hp; exact h.step (.write s i _ _ _ hp (by simp))
    · rename_i hp; exact h.step (.finish s i _ _ hp)
    · rename_i hp; exact h.step (.read s i _ _ _ _ hp)

theorem turns_reach {gmtime : Nat → Utc} (ts : List Turn) : ∀ {s : Dates}, Dates.Reach gmtime s →
    Dates.Reach gmtime (ts.foldl (turn gmtime) s) := by
  induction ts with
  | nil => exact fun h => h
  | cons t ts ih => exact fun h => ih (turn_reach h t)

/-- No call yet. -/
def quiet : Dates := ⟨fun _ => 0, fun _ => .idle, []⟩

/-- Thread 0 begins a call for the instant `first`, writes the fields, and reads year and month; then thread 1 makes a whole call for
the instant `second`; then thread 0 reads the other fields. -/
def midnightTurns (first second : Nat) : List Turn :=
  [.start 0 first] ++ List.replicate 9 (.go 0) ++ [.start 1 second] ++ List.replicate 14 (.go 1) ++ List.replicate 5 (.go 0)

/-- The state after it. -/
def midnight (first second : Nat) : Dates := (midnightTurns first second).foldl (turn stdGmtime) quiet

theorem midnight_reach (first second : Nat) : Dates.Reach stdGmtime (midnight first second) := turns_reach _ (.init _)

/-- One call after the other. -/
def calmTurns : List Turn :=
  [.start 0 5] ++ List.replicate 14 (.go 0) ++ [.start 1 1706745600000000000] ++ List.replicate 14 (.go 1)

end Clock

/-- Two calls within the same second. -/
example : Dates.Reach stdGmtime (midnight 1706745599000009000 1706745599000010000) ∧
    Made (midnight 1706745599000009000 1706745599000010000).log [] [.began 1 1706745599000010000, .ended 1 (lit "2024-01-31T23:59:59.10Z")]
      0 1706745599000009000 (lit "2024-01-31T23:59:59.9Z") ∧
    ∀ n, Overlaps [] [.began 1 1706745599000010000, .ended 1 (lit "2024-01-31T23:59:59.10Z")] n →
      n / 1000000000 = 1706745599000009000 / 1000000000 :=
  ⟨midnight_reach _ _, ⟨[], by decide +kernel, by decide⟩, by
    rintro n (⟨j, _, _, h, _⟩ | ⟨j, h⟩)
    · simp at h
    · simp at h
      rw [h.2]⟩

/-- A call that nothing overlaps. -/
example : ∃ s before, Dates.Reach stdGmtime s ∧ before ≠ [] ∧ Made s.log before [] 1 1706745600000000000 (lit "2024-02-01T00:00:00.0Z") ∧
    ∀ j n, ¬ Running before j n :=
  ⟨calmTurns.foldl (turn stdGmtime) quiet,
    [.began 0 5, .ended 0 (lit "1970-01-01T00:00:00.0Z")], turns_reach _ (.init _), by decide,
    ⟨[], by decide +kernel, by decide⟩, by
      rintro j n ⟨a, b, h, hb⟩
      match a, h with
      | [], h => simp at h; obtain ⟨⟨rfl, _⟩, rfl⟩ := h; simp [Call.thread] at hb
      | [_], h => simp at h
      | _ :: _ :: a, h => simp at h⟩

/-- Finding (C99): if thread 1 calls for the first second of February while thread 0 prints the last second of January, thread 0
gets a date 30 days before. -/
theorem C99_wrong_witness : ∃ s during text, Dates.Reach stdGmtime s ∧ Made s.log [] during 0 1706745599000009000 text ∧
    text = lit "2024-01-01T00:00:00.9Z" ∧ iso8601 stdGmtime 1706745599000009000 = lit "2024-01-31T23:59:59.9Z" ∧
    Denotes text 1704067200 9 1 := by
  refine ⟨midnight 1706745599000009000 1706745600000010000,
    [.began 1 1706745600000010000, .ended 1 (lit "2024-02-01T00:00:00.10Z")], _, midnight_reach _ _,
    ⟨[], ?_, by decide⟩, rfl, by decide +kernel, ?_⟩
  · decide +kernel
  · exact ⟨⟨2024, 1, 1, 0, 0, 0⟩, lit "2024", lit "01", lit "01", lit "00", lit "00", lit "00", lit "9", by unfold Valid; decide +kernel,
      by decide +kernel, by decide +kernel, by unfold Field; decide +kernel, by unfold Field; decide +kernel,
      by unfold Field; decide +kernel, by unfold Field; decide +kernel, by unfold Field; decide +kernel,
      by unfold Field; decide +kernel, by unfold Field; decide +kernel⟩

/-- Finding (C99): the date can even be none at all. -/
theorem C99_invalid_witness : ∃ s during text, Dates.Reach stdGmtime s ∧ Made s.log [] during 0 1706745600000009000 text ∧
    text = lit "2024-02-31T23:59:59.9Z" ∧ ∀ secs num len, ¬ Denotes text secs num len := by
  refine ⟨midnight 1706745600000009000 1706745599000010000,
    [.began 1 1706745599000010000, .ended 1 (lit "2024-01-31T23:59:59.10Z")], _, midnight_reach _ _,
    ⟨[], ?_, by decide⟩, rfl, ?_⟩
  · decide +kernel
  · rintro secs num len ⟨t, y, mo, d, h, mi, s, f, hv, _, he, f1, f2, f3, _⟩
    have e : lit "2024-02-31T23:59:59.9Z" = lit "2024" ++ 45 :: (lit "02" ++ 45 :: (lit "31" ++ lit "T23:59:59.9Z")) := by decide
    rw [e] at he
    obtain ⟨e1, he⟩ := List.append_inj he (by rw [f1.1]; decide)
    obtain ⟨e2, he⟩ := List.append_inj (List.cons.inj he).2 (by rw [f2.1]; decide)
    obtain ⟨e3, _⟩ := List.append_inj (List.cons.inj he).2 (by rw [f3.1]; decide)
    have g1 := f1.2.2
    have g2 := f2.2.2
    have g3 := f3.2.2
    rw [← e1] at g1
    rw [← e2] at g2
    rw [← e3] at g3
    have v1 : digitsVal 0 (lit "2024") = 2024 := by decide
    have v2 : digitsVal 0 (lit "02") = 2 := by decide
    have v3 : digitsVal 0 (lit "31") = 31 := by decide
    rw [v1] at g1
    rw [v2] at g2
    rw [v3] at g3
    obtain ⟨_, _, _, _, hd, _⟩ := hv
    rw [← g1, ← g2, ← g3] at hd
    revert hd
    decide

end Xeus
