import Verif.Server.Relay

/-!
# The publisher and the heartbeat thread: lemmas (no property statements here)
-/

namespace Xeus.Relay

variable {ι : Type} [DecidableEq ι]

/-- Nothing is lost, duplicated or reordered. -/
def Counted (a : Relay ι) : Prop := ∀ i, a.given i = a.passedOf i ++ a.held i ++ a.inq i

/-- A message is there when it was seen. -/
def Seen (a : Relay ι) : Prop :=
  match a.pc with
  | .sampled true => ∃ i, a.inq i ≠ []
  | .ready true _ => ∃ i, a.inq i ≠ []
  | _ => True

omit [DecidableEq ι] in
theorem exists_upd_append {f : ι → List Multipart} [DecidableEq ι] {i : ι} {l : List Multipart} (h : ∃ j, f j ≠ []) :
    ∃ j, upd f i (f i ++ l) j ≠ [] := by
  obtain ⟨j, hj⟩ := h
  refine ⟨j, ?_⟩
  unfold upd
  split
  · rename_i h; subst h; intro h; exact hj (List.append_eq_nil_iff.1 h).1
  · exact hj

theorem counted_init : Counted (init : Relay ι) := fun _ => rfl

omit [DecidableEq ι] in
theorem seen_init : Seen (init : Relay ι) := trivial

theorem Counted.put {a : Relay ι} (h : Counted a) (i : ι) (ms : List Multipart) : Counted (a.put i ms) := by
  intro j
  have := h j
  simp only [Relay.put, upd, passedOf, held] at this ⊢
  split
  · rename_i hj; subst hj; rw [this]; simp
  · exact this

theorem Seen.put {a : Relay ι} (h : Seen a) (i : ι) (ms : List Multipart) : Seen (a.put i ms) := by
  unfold Seen at h ⊢
  simp only [Relay.put] at h ⊢
  split
  · rename_i hp; rw [hp] at h; exact exists_upd_append h
  · rename_i hp; rw [hp] at h; exact exists_upd_append h
  · trivial

theorem Counted.step {a a' : Relay ι} (h : Counted a) (hs : Step a a') : Counted a' := by
  intro j
  have := h j
  cases hs with
  | sample0 r hp _ => simpa only [passedOf, held, hp] using this
  | sample1 r0 hp _ => simpa only [passedOf, held, hp] using this
  | none hp _ => simpa only [passedOf, held, hp] using this
  | recv r1 i m r hp hi =>
    simp only [passedOf, held, hp, upd] at this ⊢
    by_cases hj : j = i
    · subst hj; rw [if_pos rfl, if_pos rfl, this, hi]; simp
    · rw [if_neg (fun h => hj h.symm), if_neg hj]; exact this
  | skip r1 hp => simpa only [passedOf, held, hp] using this
  | send i m r1 hp =>
    simp only [passedOf, held, hp] at this ⊢
    rw [this, List.filter_append, List.map_append]
    by_cases hj : i = j
    · subst hj; simp
    · simp [hj]
  | again hp => simpa only [passedOf, held, hp] using this
  | recvCtl hp => simpa only [passedOf, held, hp] using this
  | sendCtl hp => simpa only [passedOf, held, hp] using this

theorem Seen.step {a a' : Relay ι} (h : Seen a) (hs : Step a a') : Seen a' := by
  cases hs with
  | sample0 r hp hr =>
    cases r with
    | false => trivial
    | true => exact hr.1 rfl
  | sample1 r0 hp _ =>
    cases r0 with
    | false => trivial
    | true => unfold Seen at h; rw [hp] at h; exact h
  | none hp _ => trivial
  | recv r1 i m r hp hi => trivial
  | skip r1 hp => trivial
  | send i m r1 hp => trivial
  | again hp => trivial
  | recvCtl hp => trivial
  | sendCtl hp => trivial

theorem step_given {a a' : Relay ι} (hs : Step a a') : a'.given = a.given := by cases hs <;> rfl

/-! ## The stop protocol -/

/-- The value of the second flag. -/
def flag (a : Relay ι) : Bool :=
  match a.pc with
  | .ready _ r1 => r1
  | .hold _ _ r1 => r1
  | .asked r1 => r1
  | _ => false

/-- Before the command. -/
def Idle (a : Relay ι) : Prop := a.ctl = false ∧ a.ack = false ∧ a.flag = false ∧ a.pc ≠ .echo ∧ a.pc ≠ .over ∧
  ∀ r, a.pc ≠ .ready false r

/-- Between command and answer. -/
def Commanded (a : Relay ι) : Prop :=
  (a.ctl = true ∧ a.ack = false ∧ a.pc ≠ .echo ∧ a.pc ≠ .over ∧ a.pc ≠ .ready false false) ∨
  (a.ctl = false ∧ a.ack = false ∧ a.pc = .echo) ∨ (a.ctl = false ∧ a.ack = true ∧ a.pc = .over)

/-- After the answer. -/
def Ended (a : Relay ι) : Prop := a.ctl = false ∧ a.ack = false ∧ a.pc = .over

omit [DecidableEq ι] in
theorem idle_init : Idle (init : Relay ι) := by
  refine ⟨rfl, rfl, rfl, ?_, ?_, ?_⟩ <;> simp [init]

theorem Idle.put {a : Relay ι} (h : Idle a) (i : ι) (ms : List Multipart) : Idle (a.put i ms) := h

theorem Commanded.put {a : Relay ι} (h : Commanded a) (i : ι) (ms : List Multipart) : Commanded (a.put i ms) := h

theorem Ended.put {a : Relay ι} (h : Ended a) (i : ι) (ms : List Multipart) : Ended (a.put i ms) := h

theorem Idle.step {a a' : Relay ι} (h : Idle a) (hs : Step a a') : Idle a' := by
  obtain ⟨h1, h2, h3, h4, h5, h6⟩ := h
  cases hs with
  | sample0 r hp hr => exact ⟨h1, h2, rfl, by simp, by simp, by simp⟩
  | sample1 r0 hp hr =>
    rw [h1] at hr ⊢
    have : r0 = true := hr.resolve_right (by simp)
    subst this
    exact ⟨rfl, h2, rfl, by simp, by simp, by simp⟩
  | none hp _ => exact ⟨h1, h2, rfl, by simp, by simp, by simp⟩
  | recv r1 i m r hp hi =>
    have : r1 = false := by simpa [flag, hp] using h3
    subst this
    exact ⟨h1, h2, rfl, by simp, by simp, by simp⟩
  | skip r1 hp => exact absurd hp (h6 r1)
  | send i m r1 hp =>
    have : r1 = false := by simpa [flag, hp] using h3
    subst this
    exact ⟨h1, h2, rfl, by simp, by simp, by simp⟩
  | again hp => exact ⟨h1, h2, rfl, by simp, by simp, by simp⟩
  | recvCtl hp => simp [flag, hp] at h3
  | sendCtl hp => exact absurd hp h4

omit [DecidableEq ι] in
theorem Idle.command {a : Relay ι} (h : Idle a) : Commanded a.command :=
  .inl ⟨rfl, h.2.1, h.2.2.2.1, h.2.2.2.2.1, h.2.2.2.2.2 _⟩

theorem Commanded.step {a a' : Relay ι} (h : Commanded a) (hs : Step a a') : Commanded a' := by
  rcases h with ⟨h1, h2, h3, h4, h5⟩ | ⟨h1, h2, h3⟩ | ⟨h1, h2, h3⟩
  · cases hs with
    | sample0 r hp hr => exact .inl ⟨h1, h2, by simp, by simp, by simp⟩
    | sample1 r0 hp hr => exact .inl ⟨h1, h2, by simp, by simp, by simp [h1]⟩
    | none hp h => rw [h1] at h; cases h
    | recv r1 i m r hp hi => exact .inl ⟨h1, h2, by simp, by simp, by simp⟩
    | skip r1 hp => exact .inl ⟨h1, h2, by simp, by simp, by simp⟩
    | send i m r1 hp => exact .inl ⟨h1, h2, by simp, by simp, by simp⟩
    | again hp => exact .inl ⟨h1, h2, by simp, by simp, by simp⟩
    | recvCtl hp => exact .inr (.inl ⟨rfl, h2, rfl⟩)
    | sendCtl hp => exact absurd hp h3
  · cases hs with
    | sendCtl hp => exact .inr (.inr ⟨h1, rfl, rfl⟩)
    | sample0 r hp _ => rw [h3] at hp; cases hp
    | sample1 r0 hp _ => rw [h3] at hp; cases hp
    | none hp _ => rw [h3] at hp; cases hp
    | recv r1 i m r hp _ => rw [h3] at hp; cases hp
    | skip r1 hp => rw [h3] at hp; cases hp
    | send i m r1 hp => rw [h3] at hp; cases hp
    | again hp => rw [h3] at hp; cases hp
    | recvCtl hp => rw [h3] at hp; cases hp
  · exfalso
    cases hs with
    | sendCtl hp => rw [h3] at hp; cases hp
    | sample0 r hp _ => rw [h3] at hp; cases hp
    | sample1 r0 hp _ => rw [h3] at hp; cases hp
    | none hp _ => rw [h3] at hp; cases hp
    | recv r1 i m r hp _ => rw [h3] at hp; cases hp
    | skip r1 hp => rw [h3] at hp; cases hp
    | send i m r1 hp => rw [h3] at hp; cases hp
    | again hp => rw [h3] at hp; cases hp
    | recvCtl hp => rw [h3] at hp; cases hp

theorem over_stuck {a a' : Relay ι} (h : a.pc = .over) (hs : Step a a') : False := by
  cases hs with
  | sendCtl hp => rw [h] at hp; cases hp
  | sample0 r hp _ => rw [h] at hp; cases hp
  | sample1 r0 hp _ => rw [h] at hp; cases hp
  | none hp _ => rw [h] at hp; cases hp
  | recv r1 i m r hp _ => rw [h] at hp; cases hp
  | skip r1 hp => rw [h] at hp; cases hp
  | send i m r1 hp => rw [h] at hp; cases hp
  | again hp => rw [h] at hp; cases hp
  | recvCtl hp => rw [h] at hp; cases hp

omit [DecidableEq ι] in
theorem Commanded.answered {a : Relay ι} (h : Commanded a) (hk : a.ack = true) : Ended a.answered := by
  rcases h with ⟨_, h, _⟩ | ⟨_, h, _⟩ | ⟨h1, h2, h3⟩
  · rw [hk] at h; cases h
  · rw [hk] at h; cases h
  · exact ⟨h1, rfl, h3⟩

/-- A thread that is not over can go on: it never blocks but in `zmq::poll`. -/
theorem can_step {a : Relay ι} (hs : Seen a) (h : a.pc ≠ .over) : ∃ a', Step a a' := by
  cases hp : a.pc with
  | poll =>
    by_cases h : ∃ i, a.inq i ≠ []
    · exact ⟨_, .sample0 a true hp (by simp [h])⟩
    · exact ⟨_, .sample0 a false hp (by simp [h])⟩
  | sampled r0 =>
    cases r0 with
    | true => exact ⟨_, .sample1 a true hp (.inl rfl)⟩
    | false =>
      cases hc : a.ctl with
      | true => exact ⟨_, .sample1 a false hp (.inr hc)⟩
      | false => exact ⟨_, .none a hp hc⟩
  | ready r0 r1 =>
    cases r0 with
    | true =>
      unfold Seen at hs
      rw [hp] at hs
      obtain ⟨i, hi⟩ := hs
      cases hq : a.inq i with
      | nil => exact absurd hq hi
      | cons m r => exact ⟨_, .recv a r1 i m r hp hq⟩
    | false => exact ⟨_, .skip a r1 hp⟩
  | hold i m r1 => exact ⟨_, .send a i m r1 hp⟩
  | asked r1 =>
    cases r1 with
    | true => exact ⟨_, .recvCtl a hp⟩
    | false => exact ⟨_, .again a hp⟩
  | echo => exact ⟨_, .sendCtl a hp⟩
  | over => exact absurd hp h

/-- How far a thread is from the end after the command. -/
def rank (a : Relay ι) : Nat :=
  match a.pc with
  | .over => 0
  | .echo => 1
  | .asked true => 2
  | .hold _ _ true => 3
  | .ready false _ => 3
  | .ready true true => 4
  | .sampled _ => 5
  | .poll => 6
  | .asked false => 7
  | .hold _ _ false => 8
  | .ready true false => 9

theorem rank_step {a a' : Relay ι} (h : Commanded a) (hs : Step a a') : rank a' < rank a := by
  rcases h with ⟨h1, h2, h3, h4, h5⟩ | ⟨h1, h2, h3⟩ | ⟨h1, h2, h3⟩
  · cases hs with
    | sample0 r hp hr => simp [rank, hp]
    | sample1 r0 hp hr => cases r0 <;> simp [rank, hp, h1]
    | none hp h => rw [h1] at h; cases h
    | recv r1 i m r hp hi => cases r1 <;> simp [rank, hp]
    | skip r1 hp =>
      cases r1 with
      | true => simp [rank, hp]
      | false => exact absurd hp h5
    | send i m r1 hp => cases r1 <;> simp [rank, hp]
    | again hp => simp [rank, hp]
    | recvCtl hp => simp [rank, hp]
    | sendCtl hp => simp [rank, hp]
  · cases hs with
    | sendCtl hp => simp [rank, hp]
    | sample0 r hp _ => rw [h3] at hp; cases hp
    | sample1 r0 hp _ => rw [h3] at hp; cases hp
    | none hp _ => rw [h3] at hp; cases hp
    | recv r1 i m r hp _ => rw [h3] at hp; cases hp
    | skip r1 hp => rw [h3] at hp; cases hp
    | send i m r1 hp => rw [h3] at hp; cases hp
    | again hp => rw [h3] at hp; cases hp
    | recvCtl hp => rw [h3] at hp; cases hp
  · exact (over_stuck h3 hs).elim

theorem rank_put (a : Relay ι) (i : ι) (ms : List Multipart) : rank (a.put i ms) = rank a := rfl

/-! ## Progress -/

/-- Something is waiting or in hand. -/
def Loaded (a : Relay ι) : Prop := (∃ i, a.inq i ≠ []) ∨ ∃ i m r1, a.pc = .hold i m r1

/-- How far a thread is from passing on the next message. -/
def toSend (a : Relay ι) : Nat :=
  match a.pc with
  | .hold _ _ _ => 1
  | .ready true _ => 2
  | .sampled true => 3
  | .poll => 4
  | .asked false => 5
  | .over => 9
  | .echo => 10
  | .asked true => 11
  | .ready false _ => 12
  | .sampled false => 13

theorem Loaded.put {a : Relay ι} (h : Loaded a) (i : ι) (ms : List Multipart) : Loaded (a.put i ms) := by
  rcases h with h | h
  · exact .inl (exists_upd_append h)
  · exact .inr h

theorem Loaded.step {a a' : Relay ι} (h : Loaded a) (hs : Step a a') : Loaded a' ∨ a.passed.length < a'.passed.length := by
  have hh : ∀ {q}, a.pc = q → (∀ i m r1, q ≠ .hold i m r1) → ∃ i, a.inq i ≠ [] := by
    intro q hq hn
    rcases h with h | ⟨i, m, r1, h⟩
    · exact h
    · exact absurd (hq.symm.trans h) (hn i m r1)
  cases hs with
  | sample0 r hp hr => exact .inl (.inl (hh hp (by simp)))
  | sample1 r0 hp hr => exact .inl (.inl (hh hp (by simp)))
  | none hp _ => exact .inl (.inl (hh hp (by simp)))
  | recv r1 i m r hp hi => exact .inl (.inr ⟨i, m, r1, rfl⟩)
  | skip r1 hp => exact .inl (.inl (hh hp (by simp)))
  | send i m r1 hp => exact .inr (by simp)
  | again hp => exact .inl (.inl (hh hp (by simp)))
  | recvCtl hp => exact .inl (.inl (hh hp (by simp)))
  | sendCtl hp => exact .inl (.inl (hh hp (by simp)))

theorem toSend_step {a a' : Relay ι} (h : Loaded a) (hs : Step a a') :
    toSend a' < toSend a ∨ a.passed.length < a'.passed.length := by
  have hh : ∀ {q}, a.pc = q → (∀ i m r1, q ≠ .hold i m r1) → ∃ i, a.inq i ≠ [] := by
    intro q hq hn
    rcases h with h | ⟨i, m, r1, h⟩
    · exact h
    · exact absurd (hq.symm.trans h) (hn i m r1)
  cases hs with
  | sample0 r hp hr => rw [hr.2 (hh hp (by simp))]; simp [toSend, hp]
  | sample1 r0 hp hr => cases r0 <;> simp [toSend, hp]
  | none hp _ => simp [toSend, hp]
  | recv r1 i m r hp hi => simp [toSend, hp]
  | skip r1 hp => cases r1 <;> simp [toSend, hp]
  | send i m r1 hp => exact .inr (by simp)
  | again hp => simp [toSend, hp]
  | recvCtl hp => simp [toSend, hp]
  | sendCtl hp => simp [toSend, hp]

theorem passed_le {a a' : Relay ι} (hs : Step a a') : a.passed.length ≤ a'.passed.length := by
  cases hs <;> simp

end Xeus.Relay
