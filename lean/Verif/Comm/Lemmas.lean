import Verif.Comm.Spec

/-!
# Comms: the registry invariant (no property statements here)
-/

namespace Xeus

open Spec

/-! ## Finite maps -/

section
variable {κ ν : Type} [DecidableEq κ]

theorem alGet_set (k k' : κ) (v : ν) (l : List (κ × ν)) :
    alGet k' (alSet k v l) = if k = k' then some v else alGet k' l := by
  induction l with
  | nil => simp [alSet, alGet]
  | cons x r ih =>
    obtain ⟨k₀, v₀⟩ := x
    simp only [alSet]
    split
    · simp only [alGet]; split <;> simp_all
    · simp only [alGet, ih]; grind

theorem alGet_del (k k' : κ) (l : List (κ × ν)) : alGet k' (alDel k l) = if k = k' then none else alGet k' l := by
  induction l with
  | nil => simp [alDel, alGet]
  | cons x r ih =>
    obtain ⟨k₀, v₀⟩ := x
    simp only [alDel, List.filter_cons] at ih ⊢
    by_cases h : k₀ = k
    · simp only [h, ne_eq, not_true_eq_false, decide_false, if_false, alGet, Bool.false_eq_true]
      rw [ih]; grind
    · simp only [ne_eq, h, not_false_eq_true, decide_true, if_true, alGet]
      rw [ih]; grind

theorem alSet_keys (k : κ) (v : ν) (l : List (κ × ν)) (x : κ) :
    x ∈ (alSet k v l).map (·.1) ↔ x = k ∨ x ∈ l.map (·.1) := by
  induction l with
  | nil => simp [alSet]
  | cons y r ih =>
    obtain ⟨k₀, v₀⟩ := y
    simp only [alSet]
    split
    · rename_i h; subst h; simp
    · simp only [List.map_cons, List.mem_cons, ih]
      constructor
      · rintro (h | h | h) <;> simp [h]
      · rintro (h | h | h) <;> simp [h]

theorem alSet_nodup (k : κ) (v : ν) (l : List (κ × ν)) (h : (l.map (·.1)).Nodup) :
    ((alSet k v l).map (·.1)).Nodup := by
  induction l with
  | nil => simp [alSet]
  | cons y r ih =>
    obtain ⟨k₀, v₀⟩ := y
    simp only [List.map_cons, List.nodup_cons] at h
    simp only [alSet]
    split
    · rename_i hk; subst hk; simp only [List.map_cons, List.nodup_cons]; exact h
    · rename_i hk
      simp only [List.map_cons, List.nodup_cons]
      refine ⟨?_, ih h.2⟩
      rw [alSet_keys]
      rintro (h' | h')
      · exact hk h'
      · exact h.1 h'

theorem alDel_nodup (k : κ) (l : List (κ × ν)) (h : (l.map (·.1)).Nodup) : ((alDel k l).map (·.1)).Nodup :=
  List.Nodup.sublist (List.Sublist.map _ List.filter_sublist) h

theorem mem_alGet {k : κ} {v : ν} {l : List (κ × ν)} (hn : (l.map (·.1)).Nodup) (h : (k, v) ∈ l) : alGet k l = some v := by
  induction l with
  | nil => simp at h
  | cons y r ih =>
    obtain ⟨k₀, v₀⟩ := y
    simp only [List.map_cons, List.nodup_cons] at hn
    simp only [alGet]
    rcases List.mem_cons.mp h with h | h
    · cases h; simp
    · split
      · rename_i hk
        subst hk
        exact absurd (List.mem_map.mpr ⟨_, h, rfl⟩) hn.1
      · exact ih hn.2 h

end

/-! ## The invariant -/

/-- The state is consistent, `C` being the closed comms. -/
structure CommInv (s : Comms) (C : Nat → Prop) : Prop where
  objs : ∀ a c, alGet a s.objs = some c → a < s.next
  nodes : ∀ t n, alGet t s.nodes = some n → t < s.next
  usable : ∀ a c, Alive s a c → Usable s c.target
  ids : ∀ a b c d, Alive s a c → Alive s b d → c.id = d.id → a = b
  sound : ∀ id a, alGet id s.reg = some a → ∃ c, Alive s a c ∧ c.id = id ∧ ¬ C a
  complete : ∀ a c, Alive s a c → ¬ C a → alGet c.id s.reg = some a
  keys : (s.reg.map (·.1)).Nodup
  names : ∀ n t, alGet n s.names = some t → ∃ x, alGet t s.nodes = some x
  inj : ∀ n m t, alGet n s.names = some t → alGet m s.names = some t → n = m
  closed : ∀ a, C a → a < s.next

theorem CommInv.empty : CommInv Comms.empty fun _ => False := by
  constructor <;> simp [Comms.empty, alGet, Alive]

/-- A new comm at the next address. -/
theorem construct_inv {s : Comms} {C : Nat → Prop} (h : CommInv s C) {t : Nat} {id : Str} {mv : Option Bool}
    {f g : Option Nat} (ht : Usable s t) (hid : IdFree s id) (hmv : mv ≠ some true) :
    ∃ s', (s.newObj ⟨t, id, mv, f, g⟩).registerComm t id s.next = .ok s' ∧ CommInv s' C := by
  obtain ⟨n, hn, hm⟩ := ht
  refine ⟨{ s.newObj ⟨t, id, mv, f, g⟩ with reg := alSet id s.next s.reg }, ?_, ?_⟩
  · simp [Comms.registerComm, Comms.node, Comms.newObj, hn, hm]
  · obtain ⟨h1, h2, h3, h4, h5, h5', h6, h7, h8, h9⟩ := h
    constructor <;> simp only [Comms.newObj, Alive, Usable, IdFree] at *
    · grind [alGet_set]
    · grind [alGet_set]
    · grind [alGet_set]
    · grind [alGet_set]
    · intro i a hi
      rw [alGet_set] at hi
      split at hi
      · cases hi
        exact ⟨_, ⟨by rw [alGet_set, if_pos rfl], hmv⟩, ‹_›, by grind⟩
      · grind [alGet_set]
    · grind [alGet_set]
    · exact alSet_nodup _ _ _ h6
    · exact h7
    · exact h8
    · grind

theorem move_inv {s : Comms} {C : Nat → Prop} (h : CommInv s C) {a : Nat} (ha : ∃ c, Alive s a c) :
    ∃ b s', s.moveConstruct a = .ok (b, s') ∧ CommInv s' C := by
  obtain ⟨c, hc⟩ := ha
  obtain ⟨n, hn, hm⟩ := h.usable a c hc
  refine ⟨s.next, { (s.newObj ⟨c.target, c.id, some false, c.onMessage, c.onClose⟩).setObj a
    { c with moved := some true, onMessage := none, onClose := none } with reg := alSet c.id s.next s.reg }, ?_, ?_⟩
  · simp [Comms.moveConstruct, Comms.registerComm, Comms.node, Comms.newObj, Comms.setObj, Comms.obj, hc.1, hn, hm]
  · obtain ⟨h1, h2, h3, h4, h5, h5', h6, h7, h8, h9⟩ := h
    constructor <;> simp only [Comms.newObj, Comms.setObj, Alive, Usable, IdFree] at *
    · grind [alGet_set]
    · grind [alGet_set]
    · grind [alGet_set]
    · grind [alGet_set]
    · grind [alGet_set]
    · grind [alGet_set]
    · exact alSet_nodup _ _ _ h6
    · exact h7
    · exact h8
    · grind

theorem moveAssign_inv {s : Comms} {C : Nat → Prop} (h : CommInv s C) {d a : Nat} (hne : d ≠ a)
    (hd : ∃ c, Alive s d c) (ha : ∃ c, Alive s a c) :
    ∃ s', s.moveAssign d a = .ok s' ∧ CommInv s' fun x => C x ∧ d ≠ x := by
  obtain ⟨c, hc⟩ := ha
  obtain ⟨e, he⟩ := hd
  obtain ⟨n, hn, hm⟩ := h.usable a c hc
  refine ⟨{ s with
    objs := alSet a { c with moved := some true, onMessage := none, onClose := none } (alSet d
        ⟨c.target, c.id, some false, c.onMessage, c.onClose⟩ (alSet d { e with onMessage := c.onMessage, onClose := c.onClose, target := c.target }
          (alSet a { c with onMessage := none, onClose := none } s.objs)))
    reg := alSet c.id d (alDel e.id s.reg) }, ?_, ?_⟩
  · simp [Comms.moveAssign, Comms.registerComm, Comms.unregisterComm, Comms.node, Comms.setObj, Comms.obj, hc.1, he.1, hn, hm,
      alGet_set, hne]
  · obtain ⟨h1, h2, h3, h4, h5, h5', h6, h7, h8, h9⟩ := h
    constructor <;> simp only [Comms.setObj, Alive, Usable, IdFree] at *
    · grind [alGet_set]
    · grind [alGet_set]
    · grind [alGet_set]
    · grind [alGet_set]
    · grind [alGet_set, alGet_del]
    · grind [alGet_set, alGet_del]
    · exact alSet_nodup _ _ _ (alDel_nodup _ _ h6)
    · exact h7
    · exact h8
    · grind

theorem copyAssign_inv {s : Comms} {C : Nat → Prop} (h : CommInv s C) {d a : Nat} {g : Str}
    (hd : ∃ c, Alive s d c) (ha : ∃ c, Alive s a c) (hg : IdFree s g) :
    ∃ s', s.copyAssign d a g = .ok s' ∧ CommInv s' fun x => C x ∧ d ≠ x := by
  obtain ⟨c, hc⟩ := ha
  obtain ⟨e, he⟩ := hd
  obtain ⟨n, hn, hm⟩ := h.usable a c hc
  refine ⟨{ s with
    objs := alSet d { e with target := c.target, id := g, moved := some false } (alSet d { e with target := c.target } s.objs)
    reg := alSet g d (alDel e.id s.reg) }, ?_, ?_⟩
  · simp [Comms.copyAssign, Comms.registerComm, Comms.unregisterComm, Comms.node, Comms.setObj, Comms.obj, hc.1, he.1, hn, hm]
  · obtain ⟨h1, h2, h3, h4, h5, h5', h6, h7, h8, h9⟩ := h
    constructor <;> simp only [Comms.setObj, Alive, Usable, IdFree] at *
    · grind [alGet_set]
    · grind [alGet_set]
    · grind [alGet_set]
    · grind [alGet_set]
    · grind [alGet_set, alGet_del]
    · grind [alGet_set, alGet_del]
    · exact alSet_nodup _ _ _ (alDel_nodup _ _ h6)
    · exact h7
    · exact h8
    · grind

theorem destroy_inv {s : Comms} {C : Nat → Prop} (h : CommInv s C) {a : Nat}
    (ha : ∃ c, alGet a s.objs = some c ∧ c.moved ≠ none) : ∃ s', s.destroy a = .ok s' ∧ CommInv s' C := by
  obtain ⟨c, hc, hm⟩ := ha
  cases hmv : c.moved with
  | none => exact absurd hmv hm
  | some b =>
    cases b with
    | true =>
      refine ⟨{ s with objs := alDel a s.objs }, by simp [Comms.destroy, Comms.obj, hc, hmv], ?_⟩
      obtain ⟨h1, h2, h3, h4, h5, h5', h6, h7, h8, h9⟩ := h
      constructor <;> simp only [Alive, Usable] at *
      · grind [alGet_del]
      · grind [alGet_del]
      · grind [alGet_del]
      · grind [alGet_del]
      · grind [alGet_del]
      · grind [alGet_del]
      · exact h6
      · exact h7
      · exact h8
      · grind
    | false =>
      obtain ⟨n, hn, hma⟩ := h.usable a c ⟨hc, by simp [hmv]⟩
      refine ⟨{ s with reg := alDel c.id s.reg, objs := alDel a s.objs }, by
        simp [Comms.destroy, Comms.obj, hc, hmv, Comms.unregisterComm, Comms.node, hn, hma], ?_⟩
      obtain ⟨h1, h2, h3, h4, h5, h5', h6, h7, h8, h9⟩ := h
      constructor <;> simp only [Alive, Usable] at *
      · grind [alGet_del]
      · grind [alGet_del]
      · grind [alGet_del]
      · grind [alGet_del]
      · grind [alGet_del]
      · grind [alGet_del]
      · exact alDel_nodup _ _ h6
      · exact h7
      · exact h8
      · grind

theorem setObj_inv {s : Comms} {C : Nat → Prop} (h : CommInv s C) {a : Nat} {c c' : Comm}
    (ha : alGet a s.objs = some c) (h1 : c'.target = c.target) (h2 : c'.id = c.id) (h3 : c'.moved = c.moved) :
    CommInv (s.setObj a c') C := by
  obtain ⟨g1, g2, g3, g4, g5, g5', g6, g7, g8, g9⟩ := h
  constructor <;> simp only [Comms.setObj, Alive, Usable] at *
  · grind [alGet_set]
  · grind [alGet_set]
  · grind [alGet_set]
  · grind [alGet_set]
  · grind [alGet_set]
  · grind [alGet_set]
  · exact g6
  · exact g7
  · exact g8
  · grind

theorem registerTarget_inv {s : Comms} {C : Nat → Prop} (h : CommInv s C) (n : Str) (cb : Option Nat) :
    CommInv (s.registerTarget n cb) C := by
  unfold Comms.registerTarget
  obtain ⟨g1, g2, g3, g4, g5, g5', g6, g7, g8, g9⟩ := h
  cases hn : alGet n s.names with
  | some t =>
    constructor <;> simp only [Alive, Usable] at * <;> grind [alGet_set]
  | none =>
    constructor <;> simp only [Alive, Usable] at *
    · grind [alGet_set]
    · grind [alGet_set]
    · grind [alGet_set]
    · exact g4
    · exact g5
    · exact g5'
    · exact g6
    · intro m t hm
      rw [alGet_set] at hm ⊢
      split at hm
      · cases hm; exact ⟨_, if_pos rfl⟩
      · obtain ⟨x, hx⟩ := g7 m t hm
        split
        · exact ⟨_, rfl⟩
        · exact ⟨x, hx⟩
    · grind [alGet_set]
    · grind

theorem unregisterTarget_inv {s : Comms} {C : Nat → Prop} (h : CommInv s C) (n : Str)
    (hn : ∀ t, alGet n s.names = some t → ∀ a c, Alive s a c → c.target ≠ t) : CommInv (s.unregisterTarget n) C := by
  unfold Comms.unregisterTarget
  obtain ⟨g1, g2, g3, g4, g5, g5', g6, g7, g8, g9⟩ := h
  cases hn' : alGet n s.names with
  | some t =>
    constructor <;> simp only [Alive, Usable] at * <;> grind [alGet_del]
  | none => exact ⟨g1, g2, g3, g4, g5, g5', g6, g7, g8, g9⟩

theorem targetPtr_inv {s : Comms} {C : Nat → Prop} (h : CommInv s C) (n : Str) : CommInv (s.targetPtr n).2 C := by
  unfold Comms.targetPtr
  obtain ⟨g1, g2, g3, g4, g5, g5', g6, g7, g8, g9⟩ := h
  cases hn : alGet n s.names with
  | some t => exact ⟨g1, g2, g3, g4, g5, g5', g6, g7, g8, g9⟩
  | none =>
    constructor <;> simp only [Alive, Usable] at *
    · grind [alGet_set]
    · grind [alGet_set]
    · grind [alGet_set]
    · exact g4
    · exact g5
    · exact g5'
    · exact g6
    · intro m t hm
      rw [alGet_set] at hm ⊢
      split at hm
      · cases hm; exact ⟨_, if_pos rfl⟩
      · obtain ⟨x, hx⟩ := g7 m t hm
        split
        · exact ⟨_, rfl⟩
        · exact ⟨x, hx⟩
    · grind [alGet_set]
    · grind

theorem closed_inv {s : Comms} {C : Nat → Prop} (h : CommInv s C) (id : Str) :
    CommInv { s with reg := alDel id s.reg } fun a => C a ∨ alGet id s.reg = some a := by
  obtain ⟨g1, g2, g3, g4, g5, g5', g6, g7, g8, g9⟩ := h
  constructor <;> simp only [Alive, Usable] at *
  · exact g1
  · exact g2
  · exact g3
  · exact g4
  · grind [alGet_del]
  · grind [alGet_del]
  · exact alDel_nodup _ _ g6
  · exact g7
  · exact g8
  · grind

/-! ## Acts -/

theorem CommInv.congr {s : Comms} {C C' : Nat → Prop} (h : CommInv s C) (hc : ∀ a, C a ↔ C' a) : CommInv s C' := by
  obtain rfl : C = C' := funext fun a => propext (hc a)
  exact h

theorem does_unique {act : CommAct} {s s₁ s₂ : Comms} (h₁ : Does act s s₁) (h₂ : Does act s s₂) : s₁ = s₂ := by
  cases act with
  | op o g =>
    obtain ⟨v, h₁⟩ := h₁
    obtain ⟨v', h₂⟩ := h₂
    rw [h₁] at h₂
    exact (Prod.mk.inj (Res.ok.inj h₂)).2
  | opened c =>
    obtain ⟨a, cb, h₁⟩ := h₁
    obtain ⟨a', cb', h₂⟩ := h₂
    rw [h₁] at h₂
    exact (Prod.mk.inj (Prod.mk.inj (Res.ok.inj h₂)).2).2
  | closed id => exact h₁.trans h₂.symm

theorem openLookup_ok {s : Comms} {content : Json} {name id : Str} {t : Nat} {n : Target}
    (h1 : content.find? (lit "target_name") = some (.str name)) (h2 : content.find? (lit "comm_id") = some (.str id))
    (h3 : id.length ≤ 55) (h4 : alGet name s.names = some t) (h5 : alGet t s.nodes = some n) :
    s.openLookup content = (s.construct t id).bind fun r => .ok (r.1, n.callback, r.2) := by
  cases content with
  | obj l =>
    simp only [Json.find?] at h1 h2
    simp [Comms.openLookup, Json.cidx, h1, h2, Json.getStr, h4, Comms.node, h5, toXguid, h3]
    rfl
  | _ => simp [Json.find?] at h1

theorem act_inv {s : Comms} {C : Nat → Prop} (h : CommInv s C) {act : CommAct} (ha : Allowed s act) :
    ∃ s', Does act s s' ∧
      CommInv s' fun x => (C x ∧ ¬ AssignsTo x act) ∨ ∃ id, act = .closed id ∧ alGet id s.reg = some x := by
  have same : ∀ {s'}, CommInv s' C → (∀ x, ¬ AssignsTo x act) → (∀ id, act ≠ .closed id) → CommInv s' fun x =>
      (C x ∧ ¬ AssignsTo x act) ∨ ∃ id, act = .closed id ∧ alGet id s.reg = some x := by
    intro s' h' h1 h2
    exact h'.congr fun a => by
      constructor
      · exact fun hc => .inl ⟨hc, h1 a⟩
      · rintro (hc | ⟨id, hid, _⟩)
        · exact hc.1
        · exact absurd hid (h2 id)
  cases act with
  | op o g =>
    cases o with
    | new t =>
      obtain ⟨s', e, hi⟩ := construct_inv h (mv := none) (f := none) (g := none) ha.1 ha.2 (by simp)
      exact ⟨s', ⟨.addr s.next, by simp [CommOp.apply, Comms.construct, e]⟩, same hi (by simp [AssignsTo]) (by simp)⟩
    | newId t id =>
      obtain ⟨s', e, hi⟩ := construct_inv h (mv := none) (f := none) (g := none) ha.1 ha.2.2 (by simp)
      exact ⟨s', ⟨.addr s.next, by simp [CommOp.apply, Comms.construct, e, ha.2.1]⟩, same hi (by simp [AssignsTo]) (by simp)⟩
    | move a =>
      obtain ⟨b, s', e, hi⟩ := move_inv h ha
      exact ⟨s', ⟨.addr b, by simp [CommOp.apply, e]⟩, same hi (by simp [AssignsTo]) (by simp)⟩
    | copy a =>
      obtain ⟨⟨c, hc⟩, hg⟩ := ha
      obtain ⟨s', e, hi⟩ := construct_inv h (mv := some false) (f := none) (g := none) (h.usable a c hc) hg (by simp)
      exact ⟨s', ⟨.addr s.next, by simp [CommOp.apply, Comms.copyConstruct, Comms.obj, hc.1, e]⟩,
        same hi (by simp [AssignsTo]) (by simp)⟩
    | moveAssign d a =>
      obtain ⟨s', e, hi⟩ := moveAssign_inv h ha.1 ha.2.1 ha.2.2
      exact ⟨s', ⟨.unit, by simp [CommOp.apply, e]⟩, hi.congr fun x => by simp [AssignsTo]⟩
    | copyAssign d a =>
      obtain ⟨s', e, hi⟩ := copyAssign_inv h ha.1 ha.2.1 ha.2.2
      exact ⟨s', ⟨.unit, by simp [CommOp.apply, e]⟩, hi.congr fun x => by simp [AssignsTo]⟩
    | destroy a =>
      obtain ⟨s', e, hi⟩ := destroy_inv h ha
      exact ⟨s', ⟨.unit, by simp [CommOp.apply, e]⟩, same hi (by simp [AssignsTo]) (by simp)⟩
    | onMessage a f =>
      obtain ⟨c, hc⟩ := ha
      exact ⟨s.setObj a { c with onMessage := f }, ⟨.unit, by simp [CommOp.apply, Comms.setOnMessage, Comms.obj, hc]⟩,
        same (setObj_inv h hc rfl rfl rfl) (by simp [AssignsTo]) (by simp)⟩
    | onClose a f =>
      obtain ⟨c, hc⟩ := ha
      exact ⟨s.setObj a { c with onClose := f }, ⟨.unit, by simp [CommOp.apply, Comms.setOnClose, Comms.obj, hc]⟩,
        same (setObj_inv h hc rfl rfl rfl) (by simp [AssignsTo]) (by simp)⟩
    | getId a =>
      obtain ⟨c, hc⟩ := ha
      exact ⟨s, ⟨.str c.id, by simp [CommOp.apply, Comms.obj, hc]⟩, same h (by simp [AssignsTo]) (by simp)⟩
    | registerTarget n cb =>
      exact ⟨_, ⟨.unit, rfl⟩, same (registerTarget_inv h n cb) (by simp [AssignsTo]) (by simp)⟩
    | unregisterTarget n =>
      exact ⟨_, ⟨.unit, rfl⟩, same (unregisterTarget_inv h n ha) (by simp [AssignsTo]) (by simp)⟩
    | target n => exact ⟨_, ⟨_, rfl⟩, same (targetPtr_inv h n) (by simp [AssignsTo]) (by simp)⟩
    | comms => exact ⟨s, ⟨_, rfl⟩, same h (by simp [AssignsTo]) (by simp)⟩
  | opened content =>
    obtain ⟨name, t, id, h1, h2, h3, h4, ⟨n, hn, hm⟩, h6⟩ := ha
    obtain ⟨s', e, hi⟩ := construct_inv h (mv := none) (f := none) (g := none) ⟨n, hn, hm⟩ h6 (by simp)
    refine ⟨s', ⟨s.next, n.callback, ?_⟩, same hi (by simp [AssignsTo]) (by simp)⟩
    rw [openLookup_ok h1 h2 h3 h4 hn]
    simp [Comms.construct, e]
  | closed id =>
    refine ⟨_, rfl, (closed_inv h id).congr fun x => ?_⟩
    simp [AssignsTo]

/-! ## Traces -/

theorem trace_snoc {s : Comms} {as : List CommAct} {act : CommAct} {s₂ : Comms} (h : Trace s (as ++ [act]) s₂) :
    ∃ s₁, Trace s as s₁ ∧ Does act s₁ s₂ := by
  generalize hl : as ++ [act] = l at h
  cases h with
  | nil => simp at hl
  | snoc h1 h2 =>
    obtain ⟨rfl, hl'⟩ := List.append_inj' hl rfl
    obtain rfl := List.singleton_inj.1 hl'
    exact ⟨_, h1, h2⟩

theorem trace_unique {s : Comms} {as : List CommAct} {s₁ s₂ : Comms} (h₁ : Trace s as s₁) (h₂ : Trace s as s₂) :
    s₁ = s₂ := by
  induction h₁ generalizing s₂ with
  | nil =>
    generalize hl : ([] : List CommAct) = l at h₂
    cases h₂ with
    | nil => rfl
    | snoc h1 h2 => simp at hl
  | snoc _ hd ih =>
    obtain ⟨s', h1, h2⟩ := trace_snoc h₂
    obtain rfl := ih h1
    exact does_unique hd h2

theorem disciplined_snoc {s : Comms} {as : List CommAct} {act : CommAct} (h : Disciplined s (as ++ [act])) :
    Disciplined s as ∧ ∀ s₁, Trace s as s₁ → Allowed s₁ act := by
  refine ⟨fun p x r s₁ he ht => h p x (r ++ [act]) s₁ (by simp [he]) ht, fun s₁ ht => h as act [] s₁ rfl ht⟩

theorem wasClosed_snoc {s s₁ : Comms} {as : List CommAct} {act : CommAct} (ht : Trace s as s₁) (a : Nat) :
    WasClosed s (as ++ [act]) a ↔
      (WasClosed s as a ∧ ¬ AssignsTo a act) ∨ ∃ id, act = .closed id ∧ alGet id s₁.reg = some a := by
  constructor
  · rintro ⟨p, id, r, s₂, he, hp, hr, hn⟩
    rcases List.eq_nil_or_concat r with rfl | ⟨r', x, rfl⟩
    · obtain ⟨rfl, he'⟩ := List.append_inj' he rfl
      obtain rfl := List.singleton_inj.1 he'
      obtain rfl := trace_unique ht hp
      exact .inr ⟨id, rfl, hr⟩
    · rw [List.concat_eq_append, ← List.cons_append, ← List.append_assoc] at he
      obtain ⟨rfl, he'⟩ := List.append_inj' he rfl
      obtain rfl := List.singleton_inj.1 he'
      refine .inl ⟨⟨p, id, r', s₂, rfl, hp, hr, fun x hx => hn x (by simp [hx])⟩, hn _ (by simp)⟩
  · rintro (⟨⟨p, id, r, s₂, rfl, hp, hr, hn⟩, hna⟩ | ⟨id, rfl, hr⟩)
    · refine ⟨p, id, r ++ [act], s₂, by simp, hp, hr, ?_⟩
      intro x hx
      rcases List.mem_append.mp hx with hx | hx
      · exact hn x hx
      · obtain rfl := List.mem_singleton.mp hx; exact hna
    · exact ⟨as, id, [], s₁, rfl, ht, hr, by simp⟩

theorem wasClosed_nil (s : Comms) (a : Nat) : ¬ WasClosed s [] a := by
  rintro ⟨p, id, r, _, h, _⟩
  simp at h

/-- Disciplined sequences keep the invariant. -/
theorem trace_inv {as : List CommAct} {s : Comms} (ht : Trace Comms.empty as s) (hd : Disciplined Comms.empty as) :
    CommInv s (WasClosed Comms.empty as) := by
  induction ht with
  | nil => exact CommInv.empty.congr fun a => by simp [wasClosed_nil]
  | snoc ht hdo ih =>
    obtain ⟨h1, h2⟩ := disciplined_snoc hd
    obtain ⟨s', hs', hi⟩ := act_inv (ih h1) (h2 _ ht)
    obtain rfl := does_unique hdo hs'
    exact hi.congr fun a => (wasClosed_snoc ht a).symm

end Xeus
