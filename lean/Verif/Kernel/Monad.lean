import Verif.Base

/-!
# Programs over a shared state

`K S α` is a C++ computation that performs atomic accesses to a shared state `S`.  `run` executes it alone;
`Verif/KernelConc` executes two of them interleaved.
-/

namespace Xeus

/-- A computation: finished, or one atomic access to the state followed by the rest (which sees the value or
the exception of the access).  An access that is undefined or blocks for ever ends the computation. -/
inductive K (S α : Type) : Type 1 where
  | done (r : Res α)
  | act {β : Type} (f : S → Res β × S) (k : Except Exc β → K S α)

namespace K

variable {S α β γ : Type}

/-- Sequencing. -/
def bind : K S α → (α → K S β) → K S β
  | done (.ok a), g => g a
  | done (.exc e), _ => done (.exc e)
  | done (.ub w), _ => done (.ub w)
  | done .hang, _ => done .hang
  | act f k, g => act f fun r => (k r).bind g

instance : Monad (K S) where
  pure a := done (.ok a)
  bind := bind

/-- `try { m } catch (...) { … }`: turns an exception into a value. -/
def attempt : K S α → K S (Except Exc α)
  | done (.ok a) => done (.ok (.ok a))
  | done (.exc e) => done (.ok (.error e))
  | done (.ub w) => done (.ub w)
  | done .hang => done .hang
  | act f k => act f fun r => (k r).attempt

/-- `throw e`. -/
def throw (e : Exc) : K S α := done (.exc e)

/-- A computation that does not touch the state. -/
def ofRes (r : Res α) : K S α := done r

/-- One atomic access. -/
def lift (f : S → Res α × S) : K S α :=
  act f fun
    | .ok a => done (.ok a)
    | .error e => done (.exc e)

/-- Read. -/
def read (f : S → α) : K S α := lift fun s => (.ok (f s), s)

/-- Read that may fail. -/
def readR (f : S → Res α) : K S α := lift fun s => (f s, s)

/-- Write. -/
def modify (f : S → S) : K S Unit := lift fun s => (.ok (), f s)

/-- `try { m } catch (std::exception& e) { h }`; other exceptions pass through. -/
def catchStd (m : K S α) (h : Exc → K S α) : K S α := do
  match ← m.attempt with
  | .ok a => pure a
  | .error e => if e.isStd then h e else throw e

/-- Execution without interference. -/
def run : K S α → S → Res α × S
  | done r, s => (r, s)
  | act f k, s =>
    match f s with
    | (.ok b, s') => (k (.ok b)).run s'
    | (.exc e, s') => (k (.error e)).run s'
    | (.ub w, s') => (.ub w, s')
    | (.hang, s') => (.hang, s')

/-! ## Execution of composed computations

As in `Verif/Base.lean` the proofs are deliberately not bare `rfl`. -/

/-- What `bind` does to an outcome. -/
def andThen (x : Res α × S) (g : α → S → Res β × S) : Res β × S :=
  match x with
  | (.ok a, s) => g a s
  | (.exc e, s) => (.exc e, s)
  | (.ub w, s) => (.ub w, s)
  | (.hang, s) => (.hang, s)

@[simp] theorem andThen_ok (a : α) (s : S) (g : α → S → Res β × S) : andThen (.ok a, s) g = g a s := by
  cases (0 : Nat) <;> rfl
@[simp] theorem andThen_exc (e : Exc) (s : S) (g : α → S → Res β × S) :
    andThen (.exc e, s) g = (.exc e, s) := by cases (0 : Nat) <;> rfl
@[simp] theorem andThen_ub (w : String) (s : S) (g : α → S → Res β × S) :
    andThen (.ub w, s) g = (.ub w, s) := by cases (0 : Nat) <;> rfl
@[simp] theorem andThen_hang (s : S) (g : α → S → Res β × S) :
    andThen (.hang, s) g = (.hang, s) := by cases (0 : Nat) <;> rfl

/-- What `attempt` does to an outcome. -/
def captured (x : Res α × S) : Res (Except Exc α) × S :=
  match x with
  | (.ok a, s) => (.ok (.ok a), s)
  | (.exc e, s) => (.ok (.error e), s)
  | (.ub w, s) => (.ub w, s)
  | (.hang, s) => (.hang, s)

@[simp] theorem captured_ok (a : α) (s : S) : captured (.ok a, s) = (.ok (.ok a), s) := by
  cases (0 : Nat) <;> rfl
@[simp] theorem captured_exc (e : Exc) (s : S) :
    captured (α := α) (.exc e, s) = (.ok (.error e), s) := by cases (0 : Nat) <;> rfl
@[simp] theorem captured_ub (w : String) (s : S) :
    captured (α := α) (.ub w, s) = (.ub w, s) := by cases (0 : Nat) <;> rfl
@[simp] theorem captured_hang (s : S) :
    captured (α := α) (.hang, s) = (.hang, s) := by cases (0 : Nat) <;> rfl

theorem run_bind_aux (m : K S α) (g : α → K S β) (s : S) :
    (m.bind g).run s = andThen (m.run s) fun a s' => (g a).run s' := by
  induction m generalizing s with
  | done r => cases r <;> rfl
  | act f k ih =>
    simp only [bind, run]
    split <;> rename_i h <;> simp only [ih, andThen]

@[simp] theorem run_bind (m : K S α) (g : α → K S β) (s : S) :
    (m >>= g).run s = andThen (m.run s) fun a s' => (g a).run s' := run_bind_aux m g s

@[simp] theorem run_attempt (m : K S α) (s : S) : m.attempt.run s = captured (m.run s) := by
  induction m generalizing s with
  | done r => cases r <;> rfl
  | act f k ih =>
    simp only [attempt, run]
    split <;> rename_i h <;> simp only [ih, captured]

@[simp] theorem run_pure (a : α) (s : S) : (pure a : K S α).run s = (.ok a, s) := by
  cases (0 : Nat) <;> rfl
@[simp] theorem run_done (r : Res α) (s : S) : (done r : K S α).run s = (r, s) := by
  cases (0 : Nat) <;> rfl
@[simp] theorem run_ofRes (r : Res α) (s : S) : (ofRes r : K S α).run s = (r, s) := by
  cases (0 : Nat) <;> rfl
@[simp] theorem run_throw (e : Exc) (s : S) : (throw e : K S α).run s = (.exc e, s) := by
  cases (0 : Nat) <;> rfl
@[simp] theorem run_lift (f : S → Res α × S) (s : S) : (lift f).run s = f s := by
  simp only [lift, run]
  split <;> rename_i h <;> simp only [h]
@[simp] theorem run_read (f : S → α) (s : S) : (read f).run s = (.ok (f s), s) := by
  simp only [read, run_lift]
@[simp] theorem run_readR (f : S → Res α) (s : S) : (readR f).run s = (f s, s) := by
  simp only [readR, run_lift]
@[simp] theorem run_modify (f : S → S) (s : S) : (modify f).run s = (.ok (), f s) := by
  simp only [modify, run_lift]

/-! ## Monad laws -/

theorem bind_assoc_aux (m : K S α) (f : α → K S β) (g : β → K S γ) :
    (m.bind f).bind g = m.bind fun a => (f a).bind g := by
  induction m with
  | done r => cases r <;> rfl
  | act h k ih => simp only [bind, ih]

theorem kbind_assoc (m : K S α) (f : α → K S β) (g : β → K S γ) :
    ((m >>= f) >>= g) = m >>= fun a => f a >>= g := bind_assoc_aux m f g

theorem kpure_bind (a : α) (f : α → K S β) : (pure a >>= f) = f a := by cases (0 : Nat) <;> rfl

theorem ofRes_ok_bind (a : α) (f : α → K S β) : (ofRes (.ok a) >>= f : K S β) = f a := by
  cases (0 : Nat) <;> rfl

theorem ofRes_exc_bind (e : Exc) (f : α → K S β) : (ofRes (.exc e) >>= f : K S β) = ofRes (.exc e) := by
  cases (0 : Nat) <;> rfl

/-! ## Relations kept by a computation -/

/-- The computation only moves along the relation `R`, whatever its outcome. -/
def Keeps (R : S → S → Prop) (m : K S α) : Prop := ∀ s, R s (m.run s).2

/-- A preorder. -/
structure Pre (R : S → S → Prop) : Prop where
  refl : ∀ s, R s s
  trans : ∀ {a b c}, R a b → R b c → R a c

theorem Keeps.done {R : S → S → Prop} (hR : Pre R) (r : Res α) : Keeps R (K.done r) := by
  intro s; simp only [run_done]; exact hR.refl s

theorem Keeps.pure {R : S → S → Prop} (hR : Pre R) (a : α) : Keeps R (Pure.pure a : K S α) := by
  intro s; simp only [run_pure]; exact hR.refl s

theorem Keeps.ofRes {R : S → S → Prop} (hR : Pre R) (r : Res α) : Keeps R (K.ofRes r : K S α) := by
  intro s; simp only [run_ofRes]; exact hR.refl s

theorem Keeps.throw {R : S → S → Prop} (hR : Pre R) (e : Exc) : Keeps R (K.throw e : K S α) := by
  intro s; simp only [run_throw]; exact hR.refl s

theorem Keeps.bind {R : S → S → Prop} (hR : Pre R) {m : K S α} {g : α → K S β} (hm : Keeps R m)
    (hg : ∀ a, Keeps R (g a)) : Keeps R (m >>= g) := by
  intro s
  have h := hm s
  rw [run_bind]
  generalize m.run s = x at h ⊢
  obtain ⟨r, s'⟩ := x
  cases r <;> simp only [andThen_ok, andThen_exc, andThen_ub, andThen_hang] <;> try exact h
  exact hR.trans h (hg _ s')

theorem Keeps.attempt {R : S → S → Prop} {m : K S α} (hm : Keeps R m) : Keeps R m.attempt := by
  intro s
  have h := hm s
  rw [run_attempt]
  generalize m.run s = x at h ⊢
  obtain ⟨r, s'⟩ := x
  cases r <;> simpa using h

theorem Keeps.read {R : S → S → Prop} (hR : Pre R) (f : S → α) : Keeps R (K.read f) := by
  intro s; simp only [run_read]; exact hR.refl s

theorem Keeps.readR {R : S → S → Prop} (hR : Pre R) (f : S → Res α) : Keeps R (K.readR f) := by
  intro s; simp only [run_readR]; exact hR.refl s

theorem Keeps.modify {R : S → S → Prop} {f : S → S} (h : ∀ s, R s (f s)) : Keeps R (K.modify f) := by
  intro s; simp only [run_modify]; exact h s

theorem Keeps.lift {R : S → S → Prop} {f : S → Res α × S} (h : ∀ s, R s (f s).2) :
    Keeps R (K.lift f) := by
  intro s; simp only [run_lift]; exact h s

theorem Keeps.catchStd {R : S → S → Prop} (hR : Pre R) {m : K S α} {h : Exc → K S α} (hm : Keeps R m)
    (hh : ∀ e, Keeps R (h e)) : Keeps R (m.catchStd h) := by
  refine Keeps.bind hR hm.attempt fun r => ?_
  cases r with
  | ok a => exact Keeps.pure hR a
  | error e =>
    show Keeps R (if e.isStd then h e else K.throw e)
    split
    · exact hh e
    · exact Keeps.throw hR e

end K

end Xeus
