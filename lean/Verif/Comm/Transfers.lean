import Verif.Kernel.CommRuns

/-!
# Moving, copying and assigning comms (no property statements here)
-/

namespace Xeus

open Spec

/-- Every object and every target is at an address below the next one. -/
def Below (s : Comms) : Prop :=
  (∀ a c, alGet a s.objs = some c → a < s.next) ∧ (∀ t n, alGet t s.nodes = some n → t < s.next) ∧
    ∀ n t, alGet n s.names = some t → t < s.next

theorem register_eq {s s' : Comms} {t : Nat} {id : Str} {a : Nat} (h : s.registerComm t id a = .ok s') :
    Usable s t ∧ s' = { s with reg := alSet id a s.reg } := by
  unfold Comms.registerComm Comms.node at h
  cases hn : alGet t s.nodes with
  | none => simp [hn] at h
  | some n =>
    cases hm : n.managed with
    | false => simp [hn, hm] at h
    | true =>
      simp [hn, hm] at h
      exact ⟨⟨n, hn, hm⟩, h.symm⟩

theorem unregister_eq {s s' : Comms} {t : Nat} {id : Str} (h : s.unregisterComm t id = .ok s') :
    Usable s t ∧ s' = { s with reg := alDel id s.reg } := by
  unfold Comms.unregisterComm Comms.node at h
  cases hn : alGet t s.nodes with
  | none => simp [hn] at h
  | some n =>
    cases hm : n.managed with
    | false => simp [hn, hm] at h
    | true =>
      simp [hn, hm] at h
      exact ⟨⟨n, hn, hm⟩, h.symm⟩

theorem register_ok {s : Comms} {t : Nat} (ht : Usable s t) (id : Str) (a : Nat) :
    s.registerComm t id a = .ok { s with reg := alSet id a s.reg } := by
  obtain ⟨n, hn, hm⟩ := ht
  simp [Comms.registerComm, Comms.node, hn, hm]

theorem unregister_ok {s : Comms} {t : Nat} (ht : Usable s t) (id : Str) :
    s.unregisterComm t id = .ok { s with reg := alDel id s.reg } := by
  obtain ⟨n, hn, hm⟩ := ht
  simp [Comms.unregisterComm, Comms.node, hn, hm]

theorem obj_eq {s : Comms} {a : Nat} {c : Comm} (h : s.obj a = .ok c) : alGet a s.objs = some c := by
  unfold Comms.obj at h
  cases ha : alGet a s.objs with
  | none => simp [ha] at h
  | some c' => simp [ha] at h; rw [h]

theorem below_construct {s s' : Comms} {t a : Nat} {id : Str} (hb : Below s) (h : s.construct t id = .ok (a, s')) :
    Below s' := by
  unfold Comms.construct at h
  obtain ⟨x, hx, h⟩ := Res.bind_eq_ok.1 h
  simp only [Res.pure_def, Res.ok.injEq, Prod.mk.injEq] at h
  obtain ⟨rfl, rfl⟩ := h
  obtain ⟨_, rfl⟩ := register_eq hx
  obtain ⟨h1, h2, h2'⟩ := hb
  refine ⟨?_, ?_, ?_⟩ <;> simp only [Comms.newObj] <;> grind [alGet_set]

theorem below_does {act : CommAct} {s s' : Comms} (hb : Below s) (h : Does act s s') : Below s' := by
  cases act with
  | closed id => rw [show s' = _ from h]; exact hb
  | opened content =>
    obtain ⟨a, cb, h⟩ := h
    unfold Comms.openLookup at h
    obtain ⟨tn, _, h⟩ := Res.bind_eq_ok.1 h
    obtain ⟨name, _, h⟩ := Res.bind_eq_ok.1 h
    split at h
    · cases h
    · obtain ⟨n, _, h⟩ := Res.bind_eq_ok.1 h
      obtain ⟨j, _, h⟩ := Res.bind_eq_ok.1 h
      obtain ⟨id, _, h⟩ := Res.bind_eq_ok.1 h
      obtain ⟨r, hr, h⟩ := Res.bind_eq_ok.1 h
      simp only [Res.pure_def, Res.ok.injEq, Prod.mk.injEq] at h
      obtain ⟨_, _, rfl⟩ := h
      exact below_construct hb hr
  | op o g =>
    obtain ⟨v, h⟩ := h
    cases o with
    | new t =>
      obtain ⟨r, hr, h⟩ := Res.bind_eq_ok.1 h
      simp only [Res.pure_def, Res.ok.injEq, Prod.mk.injEq] at h
      obtain ⟨_, rfl⟩ := h
      exact below_construct hb hr
    | newId t id =>
      simp only [CommOp.apply] at h
      split at h
      · obtain ⟨r, hr, h⟩ := Res.bind_eq_ok.1 h
        simp only [Res.pure_def, Res.ok.injEq, Prod.mk.injEq] at h
        obtain ⟨_, rfl⟩ := h
        exact below_construct hb hr
      · cases h
    | move a =>
      obtain ⟨r, hr, h⟩ := Res.bind_eq_ok.1 h
      simp only [Res.pure_def, Res.ok.injEq, Prod.mk.injEq] at h
      obtain ⟨_, rfl⟩ := h
      obtain ⟨c, hc, hr⟩ := Res.bind_eq_ok.1 hr
      obtain ⟨x, hx, hr⟩ := Res.bind_eq_ok.1 hr
      simp only [Res.pure_def, Res.ok.injEq] at hr
      subst hr
      obtain ⟨_, rfl⟩ := register_eq hx
      have := obj_eq hc
      obtain ⟨h1, h2, h2'⟩ := hb
      refine ⟨?_, ?_, ?_⟩ <;> simp only [Comms.newObj, Comms.setObj] <;> grind [alGet_set]
    | copy a =>
      obtain ⟨r, hr, h⟩ := Res.bind_eq_ok.1 h
      simp only [Res.pure_def, Res.ok.injEq, Prod.mk.injEq] at h
      obtain ⟨_, rfl⟩ := h
      obtain ⟨c, hc, hr⟩ := Res.bind_eq_ok.1 hr
      obtain ⟨x, hx, hr⟩ := Res.bind_eq_ok.1 hr
      simp only [Res.pure_def, Res.ok.injEq] at hr
      subst hr
      obtain ⟨_, rfl⟩ := register_eq hx
      obtain ⟨h1, h2, h2'⟩ := hb
      refine ⟨?_, ?_, ?_⟩ <;> simp only [Comms.newObj] <;> grind [alGet_set]
    | moveAssign d a =>
      obtain ⟨r, hr, h⟩ := Res.bind_eq_ok.1 h
      simp only [Res.pure_def, Res.ok.injEq, Prod.mk.injEq] at h
      obtain ⟨_, rfl⟩ := h
      obtain ⟨x, hx, hr⟩ := Res.bind_eq_ok.1 hr
      obtain ⟨c, hc, hr⟩ := Res.bind_eq_ok.1 hr
      obtain ⟨s₃, h3, hr⟩ := Res.bind_eq_ok.1 hr
      obtain ⟨c', hc', hr⟩ := Res.bind_eq_ok.1 hr
      obtain ⟨_, rfl⟩ := register_eq hr
      obtain ⟨_, rfl⟩ := unregister_eq h3
      have := obj_eq hx
      have := obj_eq hc
      obtain ⟨h1, h2, h2'⟩ := hb
      refine ⟨?_, ?_, ?_⟩ <;> simp only [Comms.setObj] <;> grind [alGet_set]
    | copyAssign d a =>
      obtain ⟨r, hr, h⟩ := Res.bind_eq_ok.1 h
      simp only [Res.pure_def, Res.ok.injEq, Prod.mk.injEq] at h
      obtain ⟨_, rfl⟩ := h
      obtain ⟨x, hx, hr⟩ := Res.bind_eq_ok.1 hr
      obtain ⟨c, hc, hr⟩ := Res.bind_eq_ok.1 hr
      obtain ⟨s₁, h3, hr⟩ := Res.bind_eq_ok.1 hr
      obtain ⟨_, rfl⟩ := register_eq hr
      obtain ⟨_, rfl⟩ := unregister_eq h3
      have := obj_eq hx
      obtain ⟨h1, h2, h2'⟩ := hb
      refine ⟨?_, ?_, ?_⟩ <;> simp only [Comms.setObj] <;> grind [alGet_set]
    | destroy a =>
      obtain ⟨r, hr, h⟩ := Res.bind_eq_ok.1 h
      simp only [Res.pure_def, Res.ok.injEq, Prod.mk.injEq] at h
      obtain ⟨_, rfl⟩ := h
      rcases destroyed_or (s := s) a with ⟨s', h', hd⟩ | ⟨_, why, h'⟩
      · rw [hr] at h'
        cases h'
        obtain ⟨h1, h2, h2'⟩ := hb
        refine ⟨?_, ?_, ?_⟩
        · intro b c hbc
          rw [hd.next]
          rw [hd.objs] at hbc
          split at hbc
          · cases hbc
          · exact h1 b c hbc
        · rw [hd.next, hd.nodes]; exact h2
        · rw [hd.next, hd.names]; exact h2'
      · rw [hr] at h'; cases h'
    | onMessage a f =>
      obtain ⟨r, hr, h⟩ := Res.bind_eq_ok.1 h
      simp only [Res.pure_def, Res.ok.injEq, Prod.mk.injEq] at h
      obtain ⟨_, rfl⟩ := h
      obtain ⟨c, hc, hr⟩ := Res.bind_eq_ok.1 hr
      simp only [Res.pure_def, Res.ok.injEq] at hr
      subst hr
      have := obj_eq hc
      obtain ⟨h1, h2, h2'⟩ := hb
      refine ⟨?_, ?_, ?_⟩ <;> simp only [Comms.setObj] <;> grind [alGet_set]
    | onClose a f =>
      obtain ⟨r, hr, h⟩ := Res.bind_eq_ok.1 h
      simp only [Res.pure_def, Res.ok.injEq, Prod.mk.injEq] at h
      obtain ⟨_, rfl⟩ := h
      obtain ⟨c, hc, hr⟩ := Res.bind_eq_ok.1 hr
      simp only [Res.pure_def, Res.ok.injEq] at hr
      subst hr
      have := obj_eq hc
      obtain ⟨h1, h2, h2'⟩ := hb
      refine ⟨?_, ?_, ?_⟩ <;> simp only [Comms.setObj] <;> grind [alGet_set]
    | getId a =>
      obtain ⟨c, _, h⟩ := Res.bind_eq_ok.1 h
      simp only [Res.pure_def, Res.ok.injEq, Prod.mk.injEq] at h
      obtain ⟨_, rfl⟩ := h
      exact hb
    | registerTarget n cb =>
      simp only [CommOp.apply, Res.ok.injEq, Prod.mk.injEq] at h
      obtain ⟨_, rfl⟩ := h
      obtain ⟨h1, h2, h2'⟩ := hb
      unfold Comms.registerTarget
      split <;> refine ⟨?_, ?_, ?_⟩ <;> simp only <;> grind [alGet_set]
    | unregisterTarget n =>
      simp only [CommOp.apply, Res.ok.injEq, Prod.mk.injEq] at h
      obtain ⟨_, rfl⟩ := h
      obtain ⟨h1, h2, h2'⟩ := hb
      unfold Comms.unregisterTarget
      split
      · refine ⟨?_, ?_, ?_⟩ <;> simp only <;> grind [alGet_del]
      · exact ⟨h1, h2, h2'⟩
    | target n =>
      simp only [CommOp.apply, Res.ok.injEq, Prod.mk.injEq] at h
      obtain ⟨_, rfl⟩ := h
      obtain ⟨h1, h2, h2'⟩ := hb
      unfold Comms.targetPtr
      split
      · exact ⟨h1, h2, h2'⟩
      · refine ⟨?_, ?_, ?_⟩ <;> simp only <;> grind [alGet_set]
    | comms =>
      simp only [CommOp.apply, Res.ok.injEq, Prod.mk.injEq] at h
      obtain ⟨_, rfl⟩ := h
      exact hb

theorem trace_below {as : List CommAct} {s : Comms} (h : Trace Comms.empty as s) : Below s := by
  induction h with
  | nil => simp [Below, Comms.empty, alGet]
  | snoc _ hd ih => exact below_does ih hd

/-! ## Transfers -/

theorem moveTo {s : Comms} {a : Nat} {c : Comm} (hc : alGet a s.objs = some c) (ht : Usable s c.target)
    (hn : a ≠ s.next) : ∃ s', s.moveConstruct a = .ok (s.next, s') ∧ MovedTo s a s.next c s' := by
  have hu : Usable ((s.newObj ⟨c.target, c.id, some false, c.onMessage, c.onClose⟩).setObj a
    { c with moved := some true, onMessage := none, onClose := none }) c.target := ht
  refine ⟨{ (s.newObj ⟨c.target, c.id, some false, c.onMessage, c.onClose⟩).setObj a
    { c with moved := some true, onMessage := none, onClose := none } with reg := alSet c.id s.next s.reg }, ?_,
    rfl, rfl, fun x => ?_, fun i => ?_, rfl, rfl⟩
  · simp only [Comms.moveConstruct, Comms.obj, hc, Res.bind_ok, register_ok hu, Res.pure_def]
    rfl
  · simp only [Comms.setObj, Comms.newObj]
    grind [alGet_set]
  · simp only [alGet_set, eq_comm]

theorem copyTo {s : Comms} {a : Nat} {c : Comm} (hc : alGet a s.objs = some c) (ht : Usable s c.target) (g : Str) :
    ∃ s', s.copyConstruct a g = .ok (s.next, s') ∧ Created s s.next ⟨c.target, g, some false, none, none⟩ s' := by
  obtain ⟨s', h, hcr⟩ := created_of (s := s) (t := c.target) (id := g) (mv := some false) (f := none) (g := none) ht
  exact ⟨s', by simp [Comms.copyConstruct, Comms.obj, hc, h], hcr⟩

theorem moveOnto {s : Comms} {a b : Nat} {c d : Comm} (hc : alGet a s.objs = some c) (hd : alGet b s.objs = some d)
    (ht : Usable s c.target) (hn : b ≠ a) : ∃ s', s.moveAssign b a = .ok s' ∧ MovedOnto s a b c d s' := by
  let s₂ : Comms := (s.setObj a { c with onMessage := none, onClose := none }).setObj b
    { d with onMessage := c.onMessage, onClose := c.onClose, target := c.target }
  let s₄ : Comms := ({ s₂ with reg := alDel d.id s₂.reg } : Comms).setObj b ⟨c.target, c.id, some false, c.onMessage, c.onClose⟩
  let s₅ : Comms := s₄.setObj a ⟨c.target, c.id, some true, none, none⟩
  have h2 : Usable s₂ c.target := ht
  have h5 : Usable s₅ c.target := ht
  have h4 : alGet a s₄.objs = some { c with onMessage := none, onClose := none } := by
    simp only [s₄, s₂, Comms.setObj]
    grind [alGet_set]
  refine ⟨{ s₅ with reg := alSet c.id b s₅.reg }, ?_, rfl, fun x => ?_, fun i => ?_, rfl, rfl⟩
  · simp only [Comms.moveAssign, Comms.obj, hc, hd, Res.bind_ok]
    rw [show (s.setObj a _).setObj b _ = s₂ from rfl, unregister_ok h2]
    simp only [Res.bind_ok]
    rw [show Comms.setObj _ b _ = s₄ from rfl, h4]
    simp only [Res.bind_ok]
    rw [show Comms.setObj _ a _ = s₅ from rfl, register_ok h5]
  · simp only [s₅, s₄, s₂, Comms.setObj]
    grind [alGet_set]
  · simp only [s₅, s₄, s₂, Comms.setObj]
    grind [alGet_set, alGet_del]

theorem copyOnto {s : Comms} {a b : Nat} {c d : Comm} (hc : alGet a s.objs = some c) (hd : alGet b s.objs = some d)
    (ht : Usable s c.target) (g : Str) : ∃ s', s.copyAssign b a g = .ok s' ∧ CopiedOnto s b c d g s' := by
  let s₁ : Comms := s.setObj b { d with target := c.target }
  let s₂ : Comms := ({ s₁ with reg := alDel d.id s₁.reg } : Comms).setObj b
    { d with target := c.target, id := g, moved := some false }
  have h1 : Usable s₁ c.target := ht
  have h2 : Usable s₂ c.target := ht
  refine ⟨{ s₂ with reg := alSet g b s₂.reg }, ?_, rfl, fun x => ?_, fun i => ?_, rfl, rfl⟩
  · simp only [Comms.copyAssign, Comms.obj, hc, hd, Res.bind_ok]
    rw [show s.setObj b _ = s₁ from rfl, unregister_ok h1]
    simp only [Res.bind_ok]
    rw [show Comms.setObj _ b _ = s₂ from rfl, register_ok h2]
  · simp only [s₂, s₁, Comms.setObj]
    grind [alGet_set]
  · simp only [s₂, s₁, Comms.setObj]
    grind [alGet_set, alGet_del]

/-- Moving a comm to itself. -/
theorem moveSelf {s : Comms} {a : Nat} {c : Comm} (hc : alGet a s.objs = some c) (ht : Usable s c.target) :
    ∃ s', s.moveAssign a a = .ok s' ∧
      (∀ x, alGet x s'.objs = if x = a then some { c with moved := some true } else alGet x s.objs) ∧
      (∀ i, alGet i s'.reg = if i = c.id then some a else alGet i s.reg) := by
  let s₂ : Comms := (s.setObj a { c with onMessage := none, onClose := none }).setObj a c
  let s₄ : Comms := ({ s₂ with reg := alDel c.id s₂.reg } : Comms).setObj a { c with moved := some false }
  let s₅ : Comms := s₄.setObj a { c with moved := some true }
  have h2 : Usable s₂ c.target := ht
  have h5 : Usable s₅ c.target := ht
  have h4 : alGet a s₄.objs = some { c with moved := some false } := by
    simp only [s₄, s₂, Comms.setObj]
    grind [alGet_set]
  refine ⟨{ s₅ with reg := alSet c.id a s₅.reg }, ?_, fun x => ?_, fun i => ?_⟩
  · simp only [Comms.moveAssign, Comms.obj, hc, Res.bind_ok]
    rw [show (s.setObj a _).setObj a _ = s₂ from rfl, unregister_ok h2]
    simp only [Res.bind_ok]
    rw [show Comms.setObj _ a _ = s₄ from rfl, h4]
    simp only [Res.bind_ok]
    rw [show Comms.setObj _ a _ = s₅ from rfl, register_ok h5]
  · simp only [s₅, s₄, s₂, Comms.setObj]
    grind [alGet_set]
  · simp only [s₅, s₄, s₂, Comms.setObj]
    grind [alGet_set, alGet_del]

end Xeus
