import Verif.Kernel.User
import Verif.History.Lemmas

/-!
# What the request handlers do before, while and after answering (no property statements here)
-/

namespace Xeus

open Spec K

variable {σ : Type}

/-- Events before the reply to a request of kind `r`. -/
inductive PEv (env : Env) (r : Req) (par : Chan → Parent) : Ev → Prop
  | user {e} : UEv env par e → PEv env r par e
  | call {k} : r ∈ callReqs k → PEv env r par (.call k)
  | threw {e} : PEv env r par (.threw e)
  | stop : r = .shutdown → PEv env r par .stop
  | ctrl {m wire t} : (r = .shutdown ∧ t = lit "shutdown" ∨ r = .interrupt ∧ t = lit "interrupt") →
      WfHeader env t m.body.header → m.body.parent = (par .control).header → PEv env r par (.pub .control m wire)

/-- `es` relates to the outcome: a foreign exception escapes only if user code threw it last, and once user
code threw one the outcome is neither normal nor a `std::exception`. -/
def ForeignOk {α : Type} (es : List Ev) (x : Res α) : Prop :=
  (∀ n, x = .exc (.foreign n) → ∃ es', es = es' ++ [.threw (.foreign n)]) ∧
  (∀ n, Ev.threw (.foreign n) ∈ es → x = .exc (.foreign n) ∨ ∃ s, x = .ub s)

/-- Outcome of the part of a handler before the reply. -/
structure PreQ (env : Env) (r : Req) (w : World σ) {α : Type} (x : Res α × World σ) : Prop where
  parent : x.2.parent = w.parent
  hist : x.2.hist = w.hist
  shellQ : x.2.shellQ = w.shellQ
  count : r ≠ .execute → x.2.count = w.count
  stdinQ : ∃ used, w.stdinQ = used ++ x.2.stdinQ
  out : ∃ es, x.2.out = w.out ++ es ∧ (∀ e ∈ es, PEv env r w.parent e) ∧ ForeignOk es x.1

/-- Never lets a foreign exception escape. -/
def NoForeign {α : Type} (m : K (World σ) α) : Prop := ∀ w n, (m.run w).1 ≠ .exc (.foreign n)

theorem UEv.not_threw {env : Env} {par : Chan → Parent} {e : Exc} : ¬ UEv env par (.threw e) := by
  intro h; cases h

theorem PreQ.of_urel {env : Env} {r : Req} {w : World σ} {α : Type} {x : Res α × World σ}
    (h : URel env w x.2) (hn : ∀ n, x.1 ≠ .exc (.foreign n)) : PreQ env r w x := by
  obtain ⟨es, he, hp⟩ := h.out
  refine ⟨h.parent, h.hist, h.shellQ, fun _ => h.count, h.stdinQ, ⟨es, he, fun e he => .user (hp e he), ?_, ?_⟩⟩
  · intro n hx; exact absurd hx (hn n)
  · intro n hm; exact absurd (hp _ hm) UEv.not_threw

theorem PreQ.of_keeps {env : Env} {r : Req} {α : Type} {m : K (World σ) α}
    (h : Keeps (URel env) m) (hn : NoForeign m) (w : World σ) : PreQ env r w (m.run w) :=
  PreQ.of_urel (h w) (hn w)

theorem PreQ.andThen {env : Env} {r : Req} {w : World σ} {α β : Type} {x : Res α × World σ}
    {g : α → World σ → Res β × World σ} (hx : PreQ env r w x) (hg : ∀ a w', PreQ env r w' (g a w')) :
    PreQ env r w (K.andThen x g) := by
  obtain ⟨y, w₁⟩ := x
  cases y with
  | ok a =>
    rw [K.andThen_ok]
    have h2 := hg a w₁
    obtain ⟨u₁, hu₁⟩ := hx.stdinQ
    obtain ⟨u₂, hu₂⟩ := h2.stdinQ
    obtain ⟨e₁, he₁, hp₁, hf₁⟩ := hx.out
    obtain ⟨e₂, he₂, hp₂, hf₂⟩ := h2.out
    simp only at hu₁ he₁ hf₁
    refine ⟨h2.parent.trans hx.parent, h2.hist.trans hx.hist, h2.shellQ.trans hx.shellQ,
      fun hr => (h2.count hr).trans (hx.count hr), ⟨u₁ ++ u₂, by rw [hu₁, hu₂, List.append_assoc]⟩,
      ⟨e₁ ++ e₂, by rw [he₂, he₁, List.append_assoc], ?_, ?_, ?_⟩⟩
    · intro e he
      rcases List.mem_append.mp he with he | he
      · exact hp₁ e he
      · have := hp₂ e he
        have hpar : w₁.parent = w.parent := hx.parent
        rwa [hpar] at this
    · intro n hn
      obtain ⟨es', hes⟩ := hf₂.1 n hn
      exact ⟨e₁ ++ es', by rw [hes, List.append_assoc]⟩
    · intro n hn
      rcases List.mem_append.mp hn with hn | hn
      · rcases hf₁.2 n hn with h | ⟨_, h⟩ <;> simp at h
      · exact hf₂.2 n hn
  | exc e => rw [K.andThen_exc]; exact ⟨hx.parent, hx.hist, hx.shellQ, hx.count, hx.stdinQ, by
      obtain ⟨es, h1, h2, h3, h4⟩ := hx.out
      refine ⟨es, h1, h2, fun n hn => h3 n (by simpa using hn), fun n hn => ?_⟩
      simpa using h4 n hn⟩
  | ub e => rw [K.andThen_ub]; exact ⟨hx.parent, hx.hist, hx.shellQ, hx.count, hx.stdinQ, by
      obtain ⟨es, h1, h2, h3, h4⟩ := hx.out
      exact ⟨es, h1, h2, fun n hn => h3 n (by simp at hn), fun n hn => by simp⟩⟩
  | hang => rw [K.andThen_hang]; exact ⟨hx.parent, hx.hist, hx.shellQ, hx.count, hx.stdinQ, by
      obtain ⟨es, h1, h2, h3, h4⟩ := hx.out
      refine ⟨es, h1, h2, fun n hn => h3 n (by simp at hn), fun n hn => ?_⟩
      rcases h4 n hn with h | ⟨_, h⟩ <;> simp at h⟩

/-- `PreQ` for all starting states. -/
def PreOk (env : Env) (r : Req) {α : Type} (m : K (World σ) α) : Prop := ∀ w, PreQ env r w (m.run w)

theorem PreOk.bind {env : Env} {r : Req} {α β : Type} {m : K (World σ) α} {g : α → K (World σ) β}
    (hm : PreOk env r m) (hg : ∀ a, PreOk env r (g a)) : PreOk env r (m >>= g) := by
  intro w
  rw [K.run_bind]
  exact (hm w).andThen fun a w' => hg a w'

theorem PreOk.pure {env : Env} {r : Req} {α : Type} (a : α) : PreOk (σ := σ) env r (Pure.pure a : K (World σ) α) :=
  fun w => PreQ.of_urel (by simp only [K.run_pure]; exact (URel.pre env).refl w) (by simp)

theorem PreOk.ofRes {env : Env} {r : Req} {α : Type} {x : Res α} (hx : ∀ n, x ≠ .exc (.foreign n)) :
    PreOk (σ := σ) env r (K.ofRes x : K (World σ) α) :=
  fun w => PreQ.of_urel (by simp only [K.run_ofRes]; exact (URel.pre env).refl w) (by simpa using hx)

theorem PreOk.readR {env : Env} {r : Req} {α : Type} {f : World σ → Res α} (hx : ∀ w n, f w ≠ .exc (.foreign n)) :
    PreOk env r (K.readR f) :=
  fun w => PreQ.of_urel (by simp only [K.run_readR]; exact (URel.pre env).refl w) (by simpa using hx w)

theorem PreOk.read {env : Env} {r : Req} {α : Type} (f : World σ → α) : PreOk env r (K.read f) :=
  fun w => PreQ.of_urel (by simp only [K.run_read]; exact (URel.pre env).refl w) (by simp)

theorem PreOk.modify {env : Env} {r : Req} {f : World σ → World σ} (h : ∀ w, URel env w (f w)) :
    PreOk env r (K.modify f) :=
  fun w => PreQ.of_urel (by simp only [K.run_modify]; exact h w) (by simp)

theorem PreOk.getMetadata (env : Env) (r : Req) : PreOk (σ := σ) env r (getMetadata env) :=
  fun w => PreQ.of_urel (by rw [run_getMetadata]; exact URel.silent rfl rfl rfl rfl rfl rfl) (by simp)

theorem PreOk.publishShell {env : Env} {r : Req} (hl : ∀ e, env.log e = .ok ()) {t : Str} (ht : t ∈ userTypes)
    (md ct : Json) (bufs : List Frame) : PreOk (σ := σ) env r (publishMessage env t md ct bufs .shell) := by
  intro w
  refine PreQ.of_urel (keeps_publish hl ht md ct bufs w) fun n => ?_
  rcases publishMessage_cases hl t md ct bufs .shell w with ⟨wire, _, h⟩ | h <;> rw [h] <;> simp

theorem PreOk.onComms {env : Env} {r : Req} {α : Type} {act : CommAct} {f : Comms → Res (α × Comms)}
    (hf : ∀ s n, f s ≠ .exc (.foreign n)) : PreOk (σ := σ) env r (onComms act f) := by
  intro w
  refine PreQ.of_urel (keeps_onComms act f w) fun n => ?_
  simp only [Xeus.onComms, K.run_lift]
  have := hf w.comm n
  cases h : f w.comm <;> simp_all

theorem run_userCall {Ω α : Type} (sem : Ω → K (World σ) Val) (k : Call) (p : Prog σ Ω α) (w : World σ) :
    (userCall sem k p).run w =
      match (p.exec sem).run { w with out := w.out ++ [.call k] } with
      | (.ok a, w') => (.ok a, w')
      | (.exc e, w') => (.exc e, { w' with out := w'.out ++ [.threw e] })
      | (.ub s, w') => (.ub s, w')
      | (.hang, w') => (.hang, w') := by
  simp only [userCall, K.run_bind, run_emit, K.andThen_ok, K.run_attempt]
  generalize (p.exec sem).run { w with out := w.out ++ [.call k] } = x
  obtain ⟨y, w'⟩ := x
  cases y with
  | ok a => simp only [K.captured_ok, K.andThen_ok, K.run_pure]
  | exc e => simp only [K.captured_exc, K.andThen_ok, K.run_bind, run_emit, K.run_throw]
  | ub s => simp only [K.captured_ub, K.andThen_ub]
  | hang => simp only [K.captured_hang, K.andThen_hang]

theorem PreOk.userCall {env : Env} {r : Req} {Ω α : Type} {sem : Ω → K (World σ) Val} {k : Call}
    {p : Prog σ Ω α} (hk : r ∈ callReqs k) (hu : Keeps (URel env) (p.exec sem)) : PreOk env r (userCall sem k p) := by
  intro w
  rw [run_userCall]
  have h := hu { w with out := w.out ++ [.call k] }
  generalize (p.exec sem).run { w with out := w.out ++ [.call k] } = x at h ⊢
  obtain ⟨y, w'⟩ := x
  obtain ⟨es, he, hp⟩ := h.out
  simp only at he hp
  have hc : ∀ e ∈ [Ev.call k] ++ es, PEv env r w.parent e := by
    intro e he
    rcases List.mem_append.mp he with he | he
    · obtain rfl := List.mem_singleton.mp he; exact .call hk
    · exact .user (hp e he)
  have hnt : ∀ n, Ev.threw (.foreign n) ∉ [Ev.call k] ++ es := by
    intro n hm
    rcases List.mem_append.mp hm with hm | hm
    · simp at hm
    · exact absurd (hp _ hm) UEv.not_threw
  cases y with
  | ok a =>
    exact ⟨h.parent, h.hist, h.shellQ, fun _ => h.count, h.stdinQ,
      ⟨[.call k] ++ es, by simp [he], hc, by simp, fun n hn => absurd hn (hnt n)⟩⟩
  | exc e =>
    refine ⟨h.parent, h.hist, h.shellQ, fun _ => h.count, h.stdinQ,
      ⟨[.call k] ++ es ++ [.threw e], by simp [he], ?_, ?_, ?_⟩⟩
    · intro e' he'
      rcases List.mem_append.mp he' with he' | he'
      · exact hc e' he'
      · obtain rfl := List.mem_singleton.mp he'; exact .threw
    · intro n hn; simp at hn; subst hn; exact ⟨_, rfl⟩
    · intro n hn
      rcases List.mem_append.mp hn with hn | hn
      · exact absurd hn (hnt n)
      · simp at hn; exact .inl (by rw [hn])
  | ub s =>
    exact ⟨h.parent, h.hist, h.shellQ, fun _ => h.count, h.stdinQ,
      ⟨[.call k] ++ es, by simp [he], hc, by simp, fun n hn => absurd hn (hnt n)⟩⟩
  | hang =>
    exact ⟨h.parent, h.hist, h.shellQ, fun _ => h.count, h.stdinQ,
      ⟨[.call k] ++ es, by simp [he], hc, by simp, fun n hn => absurd hn (hnt n)⟩⟩

/-! ## No foreign exceptions from JSON, history and comms -/

theorem nf_value_str (j : Json) (k d : Str) (n : Nat) : j.value k Json.getStr d ≠ .exc (.foreign n) := by
  rcases value_str_cases j k d with ⟨s, h⟩ | h <;> rw [h] <;> simp

theorem nf_value_bool (j : Json) (k : Str) (d : Bool) (n : Nat) : j.value k Json.getBool d ≠ .exc (.foreign n) := by
  rcases value_bool_cases j k d with ⟨s, h⟩ | h <;> rw [h] <;> simp

theorem nf_value_int (j : Json) (k : Str) (d : Int) (n : Nat) : j.value k Json.getInt d ≠ .exc (.foreign n) := by
  intro h
  cases j with
  | obj kvs =>
    simp only [Json.value] at h
    split at h
    · exact absurd (getInt_exc h) (by simp)
    · cases h
  | _ => cases h

theorem nf_value_json (j : Json) (k : Str) (d : Json) (n : Nat) : j.value k Json.getJson d ≠ .exc (.foreign n) := by
  rcases value_json_cases j k d with ⟨s, h⟩ | h <;> rw [h] <;> simp

theorem nf_set (j : Json) (k : Str) (v : Json) (n : Nat) : j.set k v ≠ .exc (.foreign n) := by
  cases j <;> simp [Json.set]

theorem nf_historyRequest {M : HistoryManager} (hM : M.StdOnly) (h : Hist) (c : Json) (n : Nat) :
    historyRequest M h c ≠ .exc (.foreign n) := by
  unfold historyRequest
  refine nf_bind (nf_value_str _ _ _ _) fun a => nf_bind ?_ fun _ => nf_bind ?_ fun _ => ?_
  · split
    · exact nf_bind (nf_value_int _ _ _ _) fun _ => nf_bind (nf_value_bool _ _ _ _) fun _ =>
        nf_bind (nf_value_bool _ _ _ _) fun _ => hM.1 _ _ _ _ _
    · simp
  · split
    · exact nf_bind (nf_value_str _ _ _ _) fun _ => nf_bind (nf_value_bool _ _ _ _) fun _ =>
        nf_bind (nf_value_bool _ _ _ _) fun _ => nf_bind (nf_value_int _ _ _ _) fun _ =>
        nf_bind (nf_value_bool _ _ _ _) fun _ => hM.2.2 _ _ _ _ _ _ _
    · simp
  · split
    · exact nf_bind (nf_value_int _ _ _ _) fun _ => nf_bind (nf_value_int _ _ _ _) fun _ =>
        nf_bind (nf_value_int _ _ _ _) fun _ => nf_bind (nf_value_bool _ _ _ _) fun _ =>
        nf_bind (nf_value_bool _ _ _ _) fun _ => hM.2.1 _ _ _ _ _ _ _
    · simp

theorem nf_obj (s : Comms) (a n : Nat) : s.obj a ≠ .exc (.foreign n) := by
  unfold Comms.obj; split <;> simp

theorem nf_node (s : Comms) (a n : Nat) : s.node a ≠ .exc (.foreign n) := by
  unfold Comms.node; split <;> simp

theorem nf_registerComm (s : Comms) (t : Nat) (id : Str) (a n : Nat) :
    s.registerComm t id a ≠ .exc (.foreign n) :=
  nf_bind (nf_node _ _ _) fun _ => by split <;> simp

theorem nf_unregisterComm (s : Comms) (t : Nat) (id : Str) (n : Nat) :
    s.unregisterComm t id ≠ .exc (.foreign n) :=
  nf_bind (nf_node _ _ _) fun _ => by split <;> simp

theorem nf_construct (s : Comms) (t : Nat) (id : Str) (n : Nat) : s.construct t id ≠ .exc (.foreign n) :=
  nf_bind (nf_registerComm _ _ _ _ _) fun _ => by simp

theorem nf_destroy (s : Comms) (a n : Nat) : s.destroy a ≠ .exc (.foreign n) := by
  refine nf_bind (nf_obj _ _ _) fun c => ?_
  split
  · simp
  · simp
  · exact nf_bind (nf_unregisterComm _ _ _ _) fun _ => by simp

theorem nf_cidx (j : Json) (k : Str) (n : Nat) : j.cidx k ≠ .exc (.foreign n) := by
  unfold Json.cidx
  split
  · split <;> simp
  · simp

theorem nf_getStr (j : Json) (n : Nat) : j.getStr ≠ .exc (.foreign n) := by
  cases j <;> simp [Json.getStr]

theorem nf_toXguid (j : Json) (n : Nat) : toXguid j ≠ .exc (.foreign n) :=
  nf_bind (nf_getStr _ _) fun _ => by split <;> simp

theorem nf_openLookup (s : Comms) (c : Json) (n : Nat) : s.openLookup c ≠ .exc (.foreign n) := by
  refine nf_bind (nf_cidx _ _ _) fun _ => nf_bind (nf_getStr _ _) fun _ => ?_
  split
  · simp
  · exact nf_bind (nf_node _ _ _) fun _ => nf_bind (nf_cidx _ _ _) fun _ => nf_bind (nf_toXguid _ _) fun _ =>
      nf_bind (nf_construct _ _ _ _) fun _ => by simp

theorem nf_msgLookup (s : Comms) (c : Json) (n : Nat) : s.msgLookup c ≠ .exc (.foreign n) := by
  refine nf_bind (nf_cidx _ _ _) fun _ => nf_bind (nf_toXguid _ _) fun _ => ?_
  split
  · simp
  · exact nf_bind (nf_obj _ _ _) fun _ => by simp

theorem nf_listing (s : Comms) (l : List (Str × Nat)) (n : Nat) : s.listing l ≠ .exc (.foreign n) := by
  induction l with
  | nil => simp [Comms.listing]
  | cons x l ih =>
    exact nf_bind (nf_obj _ _ _) fun _ => nf_bind (nf_node _ _ _) fun _ => nf_bind ih fun _ => by simp

theorem deserialize_cases (C : Crypto) (J : Codec) (a : Auth) (q : Multipart) :
    (∃ m, Accepted C J a q m ∧ deserialize C J a q = .ok m) ∨
    (Refused C J a q ∧ ∃ e, deserialize C J a q = .exc e ∧ e.isStd = true) ∨
    (Undefined J a q ∧ ∃ s, deserialize C J a q = .ub s) := by
  rcases trichotomy C J a q with ⟨m, h⟩ | h | h
  · exact .inl ⟨m, h, accepted_ok C J a q m h⟩
  · exact .inr (.inl ⟨h, refused_exc C J a q h⟩)
  · exact .inr (.inr ⟨h, undefined_ub C J a q h⟩)

/-! ## Handlers that answer -/

/-- Outcome of a handler (or the rest of one) that ends by answering with type `t`. -/
structure AnsQ (env : Env) (r : Req) (t : Str) (c : Chan) (w : World σ) {α : Type} (x : Res α × World σ) :
    Prop where
  parent : x.2.parent = w.parent
  hist : x.2.hist = w.hist
  shellQ : x.2.shellQ = w.shellQ
  count : r ≠ .execute → x.2.count = w.count
  stdinQ : ∃ used, w.stdinQ = used ++ x.2.stdinQ
  out : ∃ pre rep, x.2.out = w.out ++ (pre ++ rep) ∧ (∀ e ∈ pre, PEv env r w.parent e) ∧
    rep.length ≤ 1 ∧ (∀ e ∈ rep, IsReply env c (w.parent c).ids (w.parent c).header t e) ∧
    (∀ a, x.1 = .ok a → rep.length = 1) ∧ ((∀ a, x.1 ≠ .ok a) → rep = []) ∧ ForeignOk pre x.1

def AnsOk (env : Env) (r : Req) (t : Str) (c : Chan) {α : Type} (m : K (World σ) α) : Prop :=
  ∀ w, AnsQ env r t c w (m.run w)

theorem AnsOk.bind {env : Env} {r : Req} {t : Str} {c : Chan} {α β : Type} {m : K (World σ) α}
    {g : α → K (World σ) β} (hm : PreOk env r m) (hg : ∀ a, AnsOk env r t c (g a)) :
    AnsOk env r t c (m >>= g) := by
  intro w
  rw [K.run_bind]
  have hx := hm w
  generalize m.run w = x at hx ⊢
  obtain ⟨y, w₁⟩ := x
  obtain ⟨e₁, he₁, hp₁, hf₁⟩ := hx.out
  obtain ⟨u₁, hu₁⟩ := hx.stdinQ
  have hpar : w₁.parent = w.parent := hx.parent
  simp only at he₁ hu₁ hf₁
  cases y with
  | ok a =>
    rw [K.andThen_ok]
    have h2 := hg a w₁
    obtain ⟨u₂, hu₂⟩ := h2.stdinQ
    obtain ⟨e₂, rep, he₂, hp₂, hl, hr, ho, hno, hf₂⟩ := h2.out
    refine ⟨h2.parent.trans hx.parent, h2.hist.trans hx.hist, h2.shellQ.trans hx.shellQ,
      fun hr => (h2.count hr).trans (hx.count hr), ⟨u₁ ++ u₂, by rw [hu₁, hu₂, List.append_assoc]⟩,
      ⟨e₁ ++ e₂, rep, by rw [he₂, he₁]; simp, ?_, hl, ?_, ho, hno, ?_, ?_⟩⟩
    · intro e he
      rcases List.mem_append.mp he with he | he
      · exact hp₁ e he
      · have := hp₂ e he
        rwa [hpar] at this
    · rw [hpar] at hr; exact hr
    · intro n hn
      obtain ⟨es', hes⟩ := hf₂.1 n hn
      exact ⟨e₁ ++ es', by rw [hes, List.append_assoc]⟩
    · intro n hn
      rcases List.mem_append.mp hn with hn | hn
      · rcases hf₁.2 n hn with h | ⟨_, h⟩ <;> simp at h
      · exact hf₂.2 n hn
  | exc e =>
    rw [K.andThen_exc]
    exact ⟨hx.parent, hx.hist, hx.shellQ, hx.count, ⟨u₁, hu₁⟩, ⟨e₁, [], by simp [he₁], hp₁, by simp, by simp, by simp,
      by simp, fun n hn => hf₁.1 n (by simpa using hn), fun n hn => by simpa using hf₁.2 n hn⟩⟩
  | ub s =>
    rw [K.andThen_ub]
    exact ⟨hx.parent, hx.hist, hx.shellQ, hx.count, ⟨u₁, hu₁⟩, ⟨e₁, [], by simp [he₁], hp₁, by simp, by simp, by simp,
      by simp, fun n hn => by simp at hn, fun n hn => by simp⟩⟩
  | hang =>
    rw [K.andThen_hang]
    refine ⟨hx.parent, hx.hist, hx.shellQ, hx.count, ⟨u₁, hu₁⟩, ⟨e₁, [], by simp [he₁], hp₁, by simp, by simp, by simp,
      by simp, fun n hn => by simp at hn, fun n hn => ?_⟩⟩
    rcases hf₁.2 n hn with h | ⟨_, h⟩ <;> simp at h

theorem AnsOk.sendReply {env : Env} (hl : ∀ e, env.log e = .ok ()) (r : Req) (t : Str) (md ct : Json)
    (c : Chan) : AnsOk (σ := σ) env r t c (sendReply env t md ct c) := by
  intro w
  rw [run_sendReply]
  rcases sendReplyTo_cases hl (w.parent c).ids t (w.parent c).header md ct c w with ⟨wire, _, h⟩ | h
  · rw [h]
    refine ⟨rfl, rfl, rfl, fun _ => rfl, ⟨[], rfl⟩, ⟨[], _, rfl, by simp, by simp, ?_, by simp, by simp, by simp, by simp⟩⟩
    intro e he
    obtain rfl := List.mem_singleton.mp he
    exact ⟨_, _, rfl, rfl, rfl, hdrAt_wf env w t, rfl⟩
  · rw [h]
    exact ⟨rfl, rfl, rfl, fun _ => rfl, ⟨[], rfl⟩, ⟨[], [], by simp [tick], by simp, by simp, by simp, by simp, by simp,
      by simp, by simp⟩⟩

theorem PreOk.publishControl {env : Env} {r : Req} (hl : ∀ e, env.log e = .ok ()) {t : Str}
    (ht : r = .shutdown ∧ t = lit "shutdown" ∨ r = .interrupt ∧ t = lit "interrupt")
    (md ct : Json) (bufs : List Frame) : PreOk (σ := σ) env r (publishMessage env t md ct bufs .control) := by
  intro w
  rcases publishMessage_cases hl t md ct bufs .control w with ⟨wire, _, h⟩ | h
  · rw [h]
    refine ⟨rfl, rfl, rfl, fun _ => rfl, ⟨[], rfl⟩, ⟨_, rfl, ?_, by simp, by simp⟩⟩
    intro e he
    obtain rfl := List.mem_singleton.mp he
    exact .ctrl ht (hdrAt_wf env w t) rfl
  · rw [h]
    exact ⟨rfl, rfl, rfl, fun _ => rfl, ⟨[], rfl⟩, ⟨[], by simp [tick], by simp, by simp, by simp⟩⟩

theorem PreOk.emitStop (env : Env) : PreOk (σ := σ) env .shutdown (emit .stop) := by
  intro w
  rw [run_emit]
  refine ⟨rfl, rfl, rfl, fun _ => rfl, ⟨[], rfl⟩, ⟨_, rfl, ?_, by simp, by simp⟩⟩
  intro e he
  obtain rfl := List.mem_singleton.mp he
  exact .stop rfl

section
variable {env : Env} (hs : Sane env) (I : Interp σ) (m : XMessage) (c : Chan)
include hs

theorem ans_complete : AnsOk env .complete (lit "complete_reply") c (completeRequest env I m c) :=
  AnsOk.bind (PreOk.ofRes (nf_value_str _ _ _)) fun _ => AnsOk.bind (PreOk.ofRes (nf_value_int _ _ _)) fun _ =>
    AnsOk.bind (PreOk.userCall (by simp [callReqs]) (keeps_user hs.log _)) fun _ => AnsOk.sendReply hs.log _ _ _ _ _

theorem ans_inspect : AnsOk env .inspect (lit "inspect_reply") c (inspectRequest env I m c) :=
  AnsOk.bind (PreOk.ofRes (nf_value_str _ _ _)) fun _ => AnsOk.bind (PreOk.ofRes (nf_value_int _ _ _)) fun _ =>
    AnsOk.bind (PreOk.ofRes (nf_value_int _ _ _)) fun _ =>
    AnsOk.bind (PreOk.userCall (by simp [callReqs]) (keeps_user hs.log _)) fun _ => AnsOk.sendReply hs.log _ _ _ _ _

theorem ans_history : AnsOk (σ := σ) env .history (lit "history_reply") c (historyReq env m c) :=
  AnsOk.bind (PreOk.readR fun _ => nf_historyRequest hs.manager _ _) fun _ => AnsOk.sendReply hs.log _ _ _ _ _

theorem ans_isComplete : AnsOk env .isComplete (lit "is_complete_reply") c (isCompleteRequest env I m c) :=
  AnsOk.bind (PreOk.ofRes (nf_value_str _ _ _)) fun _ =>
    AnsOk.bind (PreOk.userCall (by simp [callReqs]) (keeps_user hs.log _)) fun _ => AnsOk.sendReply hs.log _ _ _ _ _

theorem ans_commInfo : AnsOk (σ := σ) env .commInfo (lit "comm_info_reply") c (commInfoRequest env m c) := by
  refine AnsOk.bind (PreOk.ofRes fun n => ?_) fun _ =>
    AnsOk.bind (PreOk.readR fun _ => nf_listing _ _) fun _ => AnsOk.sendReply hs.log _ _ _ _ _
  split
  · simp
  · exact nf_value_str _ _ _ _

theorem ans_kernelInfo : AnsOk env .kernelInfo (lit "kernel_info_reply") c (kernelInfoRequest env I c) :=
  AnsOk.bind (PreOk.userCall (by simp [callReqs]) (keeps_user hs.log _)) fun _ =>
    AnsOk.bind (PreOk.ofRes (nf_set _ _ _)) fun _ => AnsOk.sendReply hs.log _ _ _ _ _

theorem ans_shutdown : AnsOk env .shutdown (lit "shutdown_reply") c (shutdownRequest env I m c) :=
  AnsOk.bind (PreOk.ofRes (nf_value_bool _ _ _)) fun _ =>
    AnsOk.bind (PreOk.userCall (by simp [callReqs]) (keeps_user hs.log _)) fun _ =>
    AnsOk.bind (PreOk.emitStop env) fun _ =>
    AnsOk.bind (PreOk.publishControl hs.log (.inl ⟨rfl, rfl⟩) _ _ _) fun _ => AnsOk.sendReply hs.log _ _ _ _ _

theorem ans_interrupt : AnsOk (σ := σ) env .interrupt (lit "interrupt_reply") c (interruptRequest env c) :=
  AnsOk.bind (PreOk.publishControl hs.log (.inr ⟨rfl, rfl⟩) _ _ _) fun _ => AnsOk.sendReply hs.log _ _ _ _ _

theorem ans_debug {d : Json → Json → Prog σ DOp Json} (hd : I.debug = some d) :
    AnsOk env .debug (lit "debug_reply") c (debugRequest env I m c) := by
  unfold debugRequest
  rw [hd]
  exact AnsOk.bind (PreOk.userCall (by simp [callReqs]) (keeps_debugger hs.log I _)) fun _ =>
    AnsOk.bind (PreOk.getMetadata env _) fun _ => AnsOk.sendReply hs.log _ _ _ _ _

/-! ## Comm traffic -/

theorem pre_runHandler {r : Req} (hr : r = .commClose ∨ r = .commMsg) (h : Option Nat) :
    PreOk env r (runHandler env I h m) := by
  cases h with
  | none => exact PreOk.pure ()
  | some n => exact PreOk.userCall (by rcases hr with rfl | rfl <;> simp [callReqs]) (keeps_user hs.log _)

theorem pre_commMsg : PreOk env .commMsg (commMsg env I m) :=
  PreOk.bind (PreOk.readR fun _ => nf_msgLookup _ _) fun _ => pre_runHandler hs I m (.inr rfl) _

theorem pre_commClose : PreOk env .commClose (commClose env I m) :=
  PreOk.bind (PreOk.readR fun _ => nf_msgLookup _ _) fun _ =>
    PreOk.bind (pre_runHandler hs I m (.inl rfl) _) fun _ =>
    PreOk.modify fun _ => URel.silent rfl rfl rfl rfl rfl rfl

omit hs in
theorem destroy_noexc (s : Comms) (a : Nat) (e : Exc) : s.destroy a ≠ .exc e := by
  unfold Comms.destroy Comms.obj
  cases alGet a s.objs with
  | none => simp
  | some o =>
    simp only [Res.bind_ok]
    split
    · simp
    · simp
    · unfold Comms.unregisterComm Comms.node
      cases alGet o.target s.nodes with
      | none => simp
      | some n => cases hm : n.managed <;> simp [hm]

theorem pre_commOpen : PreOk env .commOpen (commOpen env I m) := by
  refine PreOk.bind (PreOk.onComms fun s n => nf_bind (nf_openLookup _ _ _) fun _ => by simp) fun r => ?_
  intro w
  have hin : PreOk env .commOpen (match r.2 with
    | none => K.throw (.runtime "bad_function_call")
    | some cb => userCall (Op.sem env) (.target cb r.1 m) (I.target cb r.1 m) : K (World σ) Unit) := by
    cases r.2 with
    | none => exact PreOk.ofRes (x := .exc (.runtime "bad_function_call")) (by simp)
    | some cb => exact PreOk.userCall (by simp [callReqs]) (keeps_user hs.log _)
  simp only [K.run_bind, K.run_attempt]
  have hx := hin w
  generalize K.run _ w = x at hx ⊢
  obtain ⟨y, w₁⟩ := x
  have hd : PreOk (σ := σ) env .commOpen (onComms (.op (.destroy r.1) []) fun s => do
      let s ← s.destroy r.1
      return ((), s)) := PreOk.onComms fun s n => nf_bind (nf_destroy _ _ _) fun _ => by simp
  cases y with
  | ok a =>
    simp only [K.captured_ok, K.andThen_ok, K.run_pure]
    exact PreQ.andThen (x := (.ok a, w₁)) (g := fun _ w => K.andThen _ _) hx fun _ w' =>
      PreQ.andThen (hd w') fun _ w'' => PreOk.pure () w''
  | exc e =>
    simp only [K.captured_exc, K.andThen_ok, K.run_throw, onComms, K.run_lift]
    obtain ⟨es, he, hp, hf⟩ := hx.out
    cases hdd : w₁.comm.destroy r.1 with
    | ok s' =>
      simp only [Res.bind_ok, Res.pure_def, K.andThen_ok]
      refine ⟨hx.parent, hx.hist, hx.shellQ, hx.count, hx.stdinQ, ⟨es, he, hp, ?_, ?_⟩⟩
      · intro n hn; exact hf.1 n (by simpa using hn)
      · intro n hn; simpa using hf.2 n hn
    | exc e' => exact absurd hdd (destroy_noexc _ _ _)
    | ub s' =>
      simp only [Res.bind_ub, K.andThen_ub]
      exact ⟨hx.parent, hx.hist, hx.shellQ, hx.count, hx.stdinQ, ⟨es, he, hp, by simp, by simp⟩⟩
    | hang =>
      exfalso
      revert hdd
      unfold Comms.destroy Comms.obj
      cases alGet r.1 w₁.comm.objs with
      | none => simp
      | some o =>
        simp only [Res.bind_ok]
        split
        · simp
        · simp
        · unfold Comms.unregisterComm Comms.node
          cases alGet o.target w₁.comm.nodes with
          | none => simp
          | some n => cases hm : n.managed <;> simp [hm]
  | ub s =>
    simp only [K.captured_ub, K.andThen_ub]
    obtain ⟨es, he, hp, hf⟩ := hx.out
    exact ⟨hx.parent, hx.hist, hx.shellQ, hx.count, hx.stdinQ, ⟨es, he, hp, by simp, by simp⟩⟩
  | hang =>
    simp only [K.captured_hang, K.andThen_hang]
    obtain ⟨es, he, hp, hf⟩ := hx.out
    refine ⟨hx.parent, hx.hist, hx.shellQ, hx.count, hx.stdinQ, ⟨es, he, hp, by simp, ?_⟩⟩
    intro n hn
    rcases hf.2 n hn with h | ⟨_, h⟩ <;> simp at h

/-! ## Executing code -/

omit hs in
theorem pre_incCount : PreOk (σ := σ) env .execute incCount := by
  intro w
  simp only [incCount, K.run_lift]
  cases h : intAdd w.count 1 with
  | ok n => exact ⟨rfl, rfl, rfl, fun hr => absurd rfl hr, ⟨[], rfl⟩, ⟨[], by simp, by simp, by simp, by simp⟩⟩
  | exc e =>
    refine ⟨rfl, rfl, rfl, fun _ => rfl, ⟨[], rfl⟩, ⟨[], by simp, by simp, ?_, by simp⟩⟩
    intro n hn
    simp at hn; subst hn
    exact absurd h (nf_intAdd _ _ _)
  | ub s => exact ⟨rfl, rfl, rfl, fun _ => rfl, ⟨[], rfl⟩, ⟨[], by simp, by simp, by simp, by simp⟩⟩
  | hang => exact ⟨rfl, rfl, rfl, fun _ => rfl, ⟨[], rfl⟩, ⟨[], by simp, by simp, by simp, by simp⟩⟩

theorem pre_announce (code : Str) (silent : Bool) : PreOk (σ := σ) env .execute (announce env code silent) := by
  unfold announce
  split
  · exact PreOk.bind pre_incCount fun _ => PreOk.bind (PreOk.read _) fun _ =>
      PreOk.publishShell hs.log (PubOp.type_mem _) _ _ _
  · exact PreOk.pure ()

theorem pre_interpExecute (code : Str) (silent store : Bool) (exprs : Json) (allow : Bool) :
    PreOk env .execute (interpExecute env I code silent store exprs allow) :=
  PreOk.bind (pre_announce hs code silent) fun _ => PreOk.bind (PreOk.read _) fun _ =>
    PreOk.bind (PreOk.userCall (by simp [callReqs]) (keeps_user hs.log _)) fun _ =>
    PreOk.bind (PreOk.read _) fun _ => PreOk.ofRes (nf_set _ _ _)

end

/-! ### Abort -/

theorem typeOf_value {h : Json} {t : Str} (hv : h.value (lit "msg_type") Json.getStr [] = .ok t) :
    typeOf h = some t := by
  have := (value_str_ok (c := h) (k := "msg_type") (d := "")).1 hv
  unfold typeOf
  rw [if_pos this.1]; exact this.2

theorem value_typeOf {h : Json} {t : Str} (ht : typeOf h = some t) :
    h.value (lit "msg_type") Json.getStr [] = .ok t := by
  unfold typeOf at ht
  split at ht
  · rename_i ho; exact strField_value (d := "") ho ht
  · simp at ht

theorem not_mem_take_idxOf (x : UInt8) : ∀ l : Str, x ∉ l.take (l.idxOf x)
  | [] => by simp
  | y :: l => by
    rw [List.idxOf_cons]
    by_cases h : y = x
    · simp [h]
    · have := not_mem_take_idxOf x l
      have hb : (y == x) = false := by simpa using h
      simp [hb, this, Ne.symm h]

theorem findLast_spec {s : Str} (h : 95 ∈ s) :
    ∃ a b, s = a ++ lit "_" ++ b ∧ 95 ∉ b ∧ findLastUnderscore s = some a.length := by
  have hr : 95 ∈ s.reverse := by simpa using h
  have hlt := List.idxOf_lt_length_of_mem hr
  generalize hi : s.reverse.idxOf 95 = i at *
  refine ⟨s.take (s.length - 1 - i), s.drop (s.length - i), ?_, ?_, ?_⟩
  · have hget : s.reverse[i]'(by simpa using hlt) = 95 := by
      have := List.getElem_idxOf (x := (95 : UInt8)) (xs := s.reverse) (by rw [hi]; exact hlt)
      simpa [hi] using this
    rw [List.getElem_reverse] at hget
    simp only [List.length_reverse] at hlt
    have hd : s.drop (s.length - 1 - i) = 95 :: s.drop (s.length - i) := by
      rw [List.drop_eq_getElem_cons (by omega), hget]
      congr 2; omega
    have hl : lit "_" = [95] := by decide
    rw [hl, List.append_assoc, List.singleton_append, ← hd, List.take_append_drop]
  · intro hm
    have hm' : 95 ∈ s.reverse.take i := by
      rw [List.take_reverse]; simpa using hm
    have := not_mem_take_idxOf 95 s.reverse
    rw [hi] at this
    exact this hm'
  · unfold findLastUnderscore
    rw [if_pos h, hi]
    simp only [List.length_reverse] at hlt
    rw [List.length_take]
    congr 1; omega

theorem abortName_ok {t t' : Str} (h : abortName t = .ok t') : AbortType t t' := by
  unfold abortName at h
  by_cases hm : 95 ∈ t
  · obtain ⟨a, b, hs, hb, hf⟩ := findLast_spec hm
    rw [hf] at h
    simp only [Res.ok.injEq] at h
    refine ⟨a, b, hs, hb, ?_⟩
    rw [← h, hs]
    have hl : (lit "_").length = 1 := by decide
    have : List.drop (a.length + 8) (a ++ lit "_" ++ b) = b.drop 7 := by
      rw [List.append_assoc, List.drop_append, List.drop_append, hl]
      simp [List.drop_eq_nil_of_le]
      decide
    rw [this, List.append_assoc a, List.take_left]
  · simp [findLastUnderscore, hm] at h

theorem abortName_exc {t : Str} (h : 95 ∉ t) : abortName t = .exc .outOfRange := by
  simp [abortName, findLastUnderscore, h]

theorem abortName_some {t : Str} (h : 95 ∈ t) : ∃ t', abortName t = .ok t' := by
  obtain ⟨a, b, _, _, hf⟩ := findLast_spec h
  simp [abortName, hf]

end Xeus
