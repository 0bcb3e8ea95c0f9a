import Verif.Kernels.Hist

/-!
# Handlers cannot fail if user code is mild and requests are harmless (no property statements here)
-/

namespace Xeus

open Spec K

variable {σ : Type}

theorem Placid.same {env : Env} {thr halt : Prop} {c₀ : Comms} {w w' : World σ} (h : Placid env thr halt c₀ w) (h1 : w'.parent = w.parent)
    (h2 : w'.comm = w.comm) (h3 : w'.count = w.count) (h4 : w'.hist = w.hist) (h5 : w'.shellQ = w.shellQ) (h6 : w'.out = w.out) :
    Placid env thr halt c₀ w' :=
  ⟨fun c => by rw [h1]; exact h.parents c, h2.trans h.comm, h3 ▸ h.count, h4 ▸ h.hist, h5 ▸ h.queue, h6 ▸ h.calm⟩

section
variable {env : Env} {I : Interp σ} {thr halt keep : Prop} {c₀ : Comms} {n k n₂ k₂ : Nat} {α β : Type} {t : Chan}

local notation "PG" => Placid (σ := σ) env thr halt c₀

theorem Sure.quiet {G : World σ → Prop} {f : World σ → Res α × World σ} {Q : Except Exc α → Prop}
    (h : ∀ w, G w → w.count ≤ intMax → (w.hist.length : Int) ≤ intMax → G (f w).2 ∧ (f w).2.count = w.count ∧
      (f w).2.hist = w.hist ∧ (f w).2.shellQ = w.shellQ ∧
      ((∃ b, (f w).1 = .ok b ∧ Q (.ok b)) ∨ ∃ e, (f w).1 = .exc e ∧ Q (.error e))) :
    Sure G keep n k Q n k (K.lift f) := by
  intro w hw h1 h2
  obtain ⟨a, b, c, d, e⟩ := h w hw (by omega) (by omega)
  refine ⟨n, k, a, by rw [b]; omega, by rw [c]; omega, d ▸ List.suffix_refl _, fun _ => d, ?_⟩
  rcases e with ⟨x, e1, e2⟩ | ⟨x, e1, e2⟩
  · exact .inl ⟨x, e1, Nat.le_refl _, Nat.le_refl _, e2⟩
  · exact .inr ⟨x, e1, Nat.le_refl _, Nat.le_refl _, e2⟩

theorem Has.read {P : α → Prop} {f : World σ → α} (h : ∀ w, PG w → InInt w.count → P (f w)) :
    Has PG keep n k P (K.read f) :=
  Sure.quiet fun w hw h1 _ => ⟨hw, rfl, rfl, rfl, .inl ⟨_, rfl, _, rfl, h w hw
    ⟨Int.le_trans (by unfold intMin; omega) hw.count, h1⟩⟩⟩

theorem Mod.readR {P : α → Prop} {f : World σ → Res α}
    (h : ∀ w, PG w → (w.hist.length : Int) ≤ intMax → (∀ a, f w = .ok a → P a) ∧ (∀ s, f w ≠ .ub s) ∧ f w ≠ .hang ∧
      ∀ j, f w ≠ .exc (.foreign j)) : Mod PG keep n k P (K.readR f) := by
  refine Sure.quiet fun w hw _ h2 => ⟨hw, rfl, rfl, rfl, ?_⟩
  obtain ⟨a, b, c, d⟩ := h w hw h2
  cases hf : f w with
  | ok x => exact .inl ⟨x, rfl, Std.ok (a x hf)⟩
  | exc e =>
    refine .inr ⟨e, rfl, Std.error ?_⟩
    cases e with
    | foreign j => exact absurd hf (d j)
    | _ => rfl
  | ub s => exact absurd hf (b s)
  | hang => exact absurd hf c

/-- A change of other components. -/
theorem Has.modify {P : Unit → Prop} {f : World σ → World σ} (hp : P ()) (h1 : ∀ w, (f w).parent = w.parent)
    (h2 : ∀ w, (f w).comm = w.comm) (h3 : ∀ w, (f w).count = w.count) (h4 : ∀ w, (f w).hist = w.hist)
    (h5 : ∀ w, (f w).shellQ = w.shellQ) (h6 : ∀ w, (f w).out = w.out) : Has PG keep n k P (K.modify f) :=
  Sure.quiet fun w hw _ _ => ⟨hw.same (h1 w) (h2 w) (h3 w) (h4 w) (h5 w) (h6 w), h3 w, h4 w, h5 w, .inl ⟨_, rfl, _, rfl, hp⟩⟩

theorem has_emit {e : Ev} (h : (∀ x, e = .threw x → thr) ∧ (e = .stop → halt)) :
    Has PG keep n k (fun _ => True) (emit e : K (World σ) Unit) := by
  refine Sure.quiet fun w hw _ _ => ⟨⟨hw.parents, hw.comm, hw.count, hw.hist, hw.queue, ?_⟩, rfl, rfl, rfl, .inl ⟨_, rfl, _, rfl, trivial⟩⟩
  intro x hx
  rcases List.mem_append.1 hx with hx | hx
  · exact hw.calm x hx
  · rw [List.mem_singleton.1 hx]; exact h

theorem has_log (hs : Sane env) (e : LogEv) : Has PG keep n k (fun _ => True) (logK env e : K (World σ) Unit) :=
  Has.ofRes (hs.log e) trivial

theorem has_makeHeader (type : Str) : Has PG keep n k (MadeBy env type) (makeHeader env type : K (World σ) Json) := by
  refine Has.bind (P := fun id => ∃ g, id = newXguid (env.guid g)) ?_ fun id hid => ?_
  · exact Sure.quiet fun w hw _ _ => ⟨hw.same rfl rfl rfl rfl rfl rfl, rfl, rfl, rfl, .inl ⟨_, rfl, _, rfl, _, rfl⟩⟩
  refine Has.bind (P := fun d => ∃ m, d = env.now m) ?_ fun d hd => ?_
  · exact Sure.quiet fun w hw _ _ => ⟨hw.same rfl rfl rfl rfl rfl rfl, rfl, rfl, rfl, .inl ⟨_, rfl, _, rfl, _, rfl⟩⟩
  obtain ⟨g, rfl⟩ := hid
  obtain ⟨m, rfl⟩ := hd
  exact Has.pure ⟨g, m, headerJson_eq ..⟩

theorem has_metadata (hs : Sane env) : Has PG keep n k (Printable env.eh) (getMetadata env : K (World σ) Json) := by
  refine Has.bind (P := fun d => ∃ m, d = env.now m) ?_ fun d hd => ?_
  · exact Sure.quiet fun w hw _ _ => ⟨hw.same rfl rfl rfl rfl rfl rfl, rfl, rfl, rfl, .inl ⟨_, rfl, _, rfl, _, rfl⟩⟩
  · obtain ⟨m, rfl⟩ := hd
    exact Has.pure (obj1_printable (utf8_lit (by decide)) (str_printable fun he => hs.now he _))

theorem has_parent (c : Chan) : Has PG keep n k Parsed (parentHeader c : K (World σ) Json) :=
  Has.read fun _ hw _ => hw.parents c

/-- Publishing succeeds, or throws a `type_error` because the content cannot be printed. -/
theorem sure_publish (hs : Sane env) {type : Str} {ct : Json} (ht : Utf8 type) (c : Chan) :
    Sure PG keep n k (fun r => r = .ok () ∨ r = .error .typeError ∧ ¬ Printable env.eh ct) n k
      (publishMessage env type (.obj []) ct [] c : K (World σ) Unit) := by
  refine Sure.bind (Sure.mono (has_makeHeader type) ?_ (Nat.le_refl _) (Nat.le_refl _))
  rintro _ ⟨h, rfl, hm⟩
  refine Sure.bind (Sure.mono (has_parent c) ?_ (Nat.le_refl _) (Nat.le_refl _))
  rintro _ ⟨p, rfl, hp⟩
  refine Sure.bind (Sure.mono (has_log hs _) ?_ (Nat.le_refl _) (Nat.le_refl _))
  rintro _ ⟨_, rfl, _⟩
  rcases serializePub_cases env.C env.J env.auth env.eh ⟨topic env type, ⟨h, p, .obj [], ct, []⟩⟩ with ⟨wire, hw⟩ | hw
  · show Sure _ _ _ _ _ _ _ (K.ofRes _ >>= _)
    rw [hw]
    refine Sure.mono (has_emit (e := .pub c _ wire) ⟨fun _ h => (by cases h), fun h => (by cases h)⟩) ?_ (Nat.le_refl _) (Nat.le_refl _)
    rintro _ ⟨_, rfl, _⟩
    exact .inl rfl
  · show Sure _ _ _ _ _ _ _ (K.ofRes _ >>= _)
    rw [hw]
    refine ⟨Nat.le_refl _, Nat.le_refl _, .inr ⟨rfl, fun hc => ?_⟩⟩
    obtain ⟨wire, h'⟩ := serializePub_ok (C := env.C) hs.codec env.auth (eh := env.eh)
      (m := ⟨topic env type, ⟨h, p, .obj [], ct, []⟩⟩) (hm.printable hs fun _ => ht) (Parsed.printable hp env.eh)
      (emptyObj_printable _) hc
    rw [hw] at h'; cases h'

theorem has_publish (hs : Sane env) {type : Str} {ct : Json} (ht : Utf8 type) (hc : Printable env.eh ct) (c : Chan) :
    Has PG keep n k (fun _ => True) (publishMessage env type (.obj []) ct [] c : K (World σ) Unit) := by
  refine Sure.mono (sure_publish hs ht c) ?_ (Nat.le_refl _) (Nat.le_refl _)
  rintro _ (rfl | ⟨_, h⟩)
  · exact ⟨_, rfl, trivial⟩
  · exact absurd hc h

theorem mod_publish (hs : Sane env) {type : Str} {ct : Json} (ht : Utf8 type) (c : Chan) :
    Mod PG keep n k (fun _ => True) (publishMessage env type (.obj []) ct [] c : K (World σ) Unit) := by
  refine Sure.mono (sure_publish hs ht c) ?_ (Nat.le_refl _) (Nat.le_refl _)
  rintro _ (rfl | ⟨rfl, h⟩)
  · exact Std.ok trivial
  · exact Std.error rfl

theorem mod_sendReplyTo (hs : Sane env) (ids : List Str) (type : Str) (p md ct : Json) (c : Chan) :
    Mod PG keep n k (fun _ => True) (sendReplyTo env ids type p md ct c : K (World σ) Unit) := by
  refine Sure.after (has_makeHeader type).mod (fun h _ => ?_) (Nat.le_refl _) (Nat.le_refl _)
  refine Sure.after (has_log hs _).mod (fun _ _ => ?_) (Nat.le_refl _) (Nat.le_refl _)
  rcases serialize_cases env.C env.J env.auth env.eh ⟨ids, ⟨h, p, md, ct, []⟩⟩ with ⟨wire, hw⟩ | hw
  · show Sure _ _ _ _ _ _ _ (K.ofRes _ >>= _)
    rw [hw]
    exact (has_emit (e := .reply c _ wire) ⟨fun _ h => (by cases h), fun h => (by cases h)⟩).mod
  · show Sure _ _ _ _ _ _ _ (K.ofRes _ >>= _)
    rw [hw]
    exact ⟨Nat.le_refl _, Nat.le_refl _, Std.error rfl⟩

theorem mod_sendReply (hs : Sane env) (type : Str) (md ct : Json) (c : Chan) :
    Mod PG keep n k (fun _ => True) (sendReply env type md ct c : K (World σ) Unit) := by
  refine Sure.after (P := fun _ => True) (Has.read fun _ _ _ => trivial).mod (fun ids _ => ?_) (Nat.le_refl _) (Nat.le_refl _)
  refine Sure.after (has_parent c).mod (fun p _ => ?_) (Nat.le_refl _) (Nat.le_refl _)
  exact mod_sendReplyTo hs ids type p md ct c

/-! ## User code -/

/-- The outcome of mild user code. -/
def Outcome (thr : Prop) (P : α → Prop) (r : Except Exc α) : Prop :=
  (∀ a, r = .ok a → P a) ∧ ∀ e, r = .error e → thr ∧ e.isStd = true

theorem sure_exec (hs : Sane env) {P : α → Prop} (p : Prog σ Op α) (hm : Mild env.eh thr p) (hy : Yields P p) :
    Sure PG keep n k (Outcome thr P) n k (p.exec (Op.sem env)) := by
  induction p with
  | ret a => exact ⟨Nat.le_refl _, Nat.le_refl _, fun _ h => (by cases h; exact hy), fun _ h => (by cases h)⟩
  | throw e => exact ⟨Nat.le_refl _, Nat.le_refl _, fun _ h => (by cases h), fun _ h => (by cases h; exact hm)⟩
  | ub s => exact hm.elim
  | hang => exact hm.elim
  | get g ih =>
    refine Sure.bind (Sure.mono (Has.read (P := fun _ => True) fun _ _ _ => trivial) ?_ (Nat.le_refl _) (Nat.le_refl _))
    rintro _ ⟨s, rfl, _⟩
    exact ih s (hm s) (hy s)
  | set s g ih =>
    refine Sure.bind (Sure.mono (Has.modify (P := fun _ => True) trivial (fun _ => rfl) (fun _ => rfl) (fun _ => rfl) (fun _ => rfl)
      (fun _ => rfl) (fun _ => rfl)) ?_ (Nat.le_refl _) (Nat.le_refl _))
    rintro _ ⟨_, rfl, _⟩
    exact ih hm hy
  | call o g ih =>
    cases o with
    | pub p =>
      have hty : Utf8 (lit (Published p).1) := by cases p <;> (simp only [Published]; exact utf8_lit (by decide))
      have hpub := sure_publish (σ := σ) (thr := thr) (halt := halt) (keep := keep) (c₀ := c₀) (n := n) (k := k) (ct := pubContent p) hs hty .shell
      rw [← pubOp_type, ← pubOp_content] at hpub
      refine Sure.bind (n₁ := n) (k₁ := k) (Sure.attempt ?_)
      refine Sure.bind (n₁ := n) (k₁ := k) (Sure.mono hpub ?_ (Nat.le_refl _) (Nat.le_refl _))
      rw [pubOp_content]
      rintro _ (rfl | ⟨rfl, h⟩)
      · exact ⟨Nat.le_refl _, Nat.le_refl _, ih _ hm.1 (hy _)⟩
      · exact ⟨Nat.le_refl _, Nat.le_refl _, ih _ (hm.2 h) (hy _)⟩
    | parentHeader =>
      refine Sure.bind (n₁ := n) (k₁ := k) (Sure.attempt ?_)
      refine Sure.bind (n₁ := n) (k₁ := k) (Sure.mono (has_parent .shell) ?_ (Nat.le_refl _) (Nat.le_refl _))
      rintro _ ⟨h, rfl, hp⟩
      exact ⟨Nat.le_refl _, Nat.le_refl _, ih _ (hm h hp) (hy _)⟩
    | input _ _ => exact hm.elim
    | history _ => exact hm.elim
    | comm _ => exact hm.elim
    | commSend _ _ _ _ _ => exact hm.elim

theorem mod_userCall (hs : Sane env) {P : α → Prop} (c : Call) {p : Prog σ Op α} (hm : Mild env.eh thr p) (hy : Yields P p) :
    Mod PG keep n k P (userCall (Op.sem env) c p) := by
  refine Sure.after (has_emit (e := .call c) ⟨fun _ h => (by cases h), fun h => (by cases h)⟩).mod (fun _ _ => ?_) (Nat.le_refl _) (Nat.le_refl _)
  refine Sure.bind (Sure.attempt (Sure.mono (sure_exec hs p hm hy) ?_ (Nat.le_refl _) (Nat.le_refl _)))
  rintro (e | a) ⟨h1, h2⟩
  · obtain ⟨ht, he⟩ := h2 e rfl
    exact Sure.after (has_emit (e := .threw e) ⟨fun _ _ => ht, fun h => (by cases h)⟩).mod (fun _ _ => ⟨Nat.le_refl _, Nat.le_refl _, Std.error he⟩)
      (Nat.le_refl _) (Nat.le_refl _)
  · exact Mod.pure (h1 a rfl)

/-! ## Execution -/

theorem sure_announce (hs : Sane env) {code : Str} (silent : Bool) :
    Sure PG keep 0 k (Std fun _ => True) 1 k (announce env code silent : K (World σ) Unit) := by
  unfold announce
  split
  · refine Sure.bind (n₁ := 0) (k₁ := k) ?_
    intro w hw h1 h2
    have hadd : intAdd w.count 1 = .ok (w.count + 1) := by
      have := hw.count
      unfold intAdd
      rw [if_pos ⟨by unfold intMin; omega, by exact h1⟩]
    simp only [hadd]
    refine ⟨0, k, ⟨hw.parents, hw.comm, by have := hw.count; show 0 ≤ w.count + 1; omega, hw.hist, hw.queue, hw.calm⟩,
      by show w.count + 1 + ((0 : Nat) : Int) ≤ _; omega, Nat.le_refl _, List.suffix_refl _, fun _ => trivial,
      .inl ⟨(), trivial, ?_⟩⟩
    refine ⟨Nat.le_refl _, Nat.le_refl _, ?_⟩
    refine Sure.after (P := fun _ => True) (Has.read fun _ _ _ => trivial).mod (fun m _ => ?_) (Nat.le_refl _) (Nat.le_refl _)
    exact mod_publish hs (utf8_lit (by decide)) _
  · exact ⟨Nat.zero_le _, Nat.le_refl _, Std.ok trivial⟩

theorem sure_store (silent store : Bool) (line : Int) {code : Str} (hc : Utf8 code) :
    Sure PG keep n 0 (Std fun _ => True) n 1 (storeK silent store line code : K (World σ) Unit) := by
  unfold storeK
  split
  · intro w hw h1 h2
    refine ⟨n, 0, ⟨hw.parents, hw.comm, hw.count, HistOk.store hw.hist _ _ hc .nil, hw.queue, hw.calm⟩, Int.le_refl _,
      by simp [storeInputs], List.suffix_refl _, fun _ => rfl, .inl ⟨(), rfl, Nat.le_refl _, Nat.le_refl _, Std.ok trivial⟩⟩
  · exact ⟨Nat.le_refl _, Nat.zero_le _, Std.ok trivial⟩

theorem mod_abortRequest (hs : Sane env) {q : Multipart} (hq : ¬ Undefined env.J env.auth q) :
    Mod PG keep n k (fun _ => True) (abortRequest env q : K (World σ) Unit) := by
  unfold abortRequest
  rcases deserialize_cases env.C env.J env.auth q with ⟨m, _, h⟩ | ⟨_, e, h, he⟩ | ⟨h, _⟩
  · rw [h]
    show Mod _ _ _ _ _ ((K.ofRes (m.body.header.value _ _ _)) >>= _)
    refine Sure.after (P := fun _ => True) ?_ (fun ty _ => ?_) (Nat.le_refl _) (Nat.le_refl _)
    · rcases value_str_cases m.body.header (lit "msg_type") [] with ⟨s, h⟩ | h <;> rw [h]
      · exact Mod.pure trivial
      · exact ⟨Nat.le_refl _, Nat.le_refl _, Std.error rfl⟩
    refine Sure.after (P := fun _ => True) ?_ (fun ty _ => mod_sendReplyTo hs _ _ _ _ _ _) (Nat.le_refl _) (Nat.le_refl _)
    unfold abortName
    split
    · exact ⟨Nat.le_refl _, Nat.le_refl _, Std.error rfl⟩
    · exact Mod.pure trivial
  · rw [h]
    show Mod _ _ _ _ _ (if e.isStd then _ else _)
    rw [he]
    exact Mod.pure trivial
  · exact absurd h hq

theorem has_recvShell (hk : ¬ keep) :
    Has PG keep n k (fun o => ∀ q, o = some q → ¬ Undefined env.J env.auth q) (recvShell : K (World σ) (Option Multipart)) := by
  intro w hw h1 h2
  cases hq : w.shellQ with
  | nil =>
    simp only [hq]
    exact ⟨n, k, hw, Int.le_refl _, Nat.le_refl _, List.suffix_refl _, fun h => absurd h hk,
      .inl ⟨none, rfl, Nat.le_refl _, Nat.le_refl _, none, rfl, fun q h => by cases h⟩⟩
  | cons q r =>
    simp only [hq]
    refine ⟨n, k, ⟨hw.parents, hw.comm, hw.count, hw.hist, fun x hx => ?_, hw.calm⟩, Int.le_refl _, Nat.le_refl _,
      List.suffix_cons _ _, fun h => absurd h hk,
      .inl ⟨some q, rfl, Nat.le_refl _, Nat.le_refl _, _, rfl, fun x h => ?_⟩⟩
    · exact hw.queue x (by rw [hq]; exact List.mem_cons_of_mem _ hx)
    · cases h
      exact hw.queue q (by rw [hq]; simp)

theorem mod_abortLoop (hs : Sane env) (hk : ¬ keep) (j : Nat) :
    Mod PG keep n k (fun _ => True) (abortLoop env j : K (World σ) Unit) := by
  induction j with
  | zero => exact Mod.pure trivial
  | succ j ih =>
    unfold abortLoop
    refine Sure.after (has_recvShell hk).mod (fun o ho => ?_) (Nat.le_refl _) (Nat.le_refl _)
    cases o with
    | none => exact Mod.pure trivial
    | some q => exact Sure.after (mod_abortRequest hs (ho q rfl)) (fun _ _ => ih) (Nat.le_refl _) (Nat.le_refl _)

theorem mod_abort (hs : Sane env) (silent : Bool) {status : Str} (stop : Bool) (hk : keep → status ≠ lit "error") :
    Mod PG keep n k (fun _ => True) (abortK env silent status stop : K (World σ) Unit) := by
  unfold abortK
  split
  · rename_i h
    exact Sure.after (P := fun _ => True) (Has.read fun _ _ _ => trivial).mod
      (fun m _ => mod_abortLoop hs (fun h' => hk h' h.2.1) _) (Nat.le_refl _) (Nat.le_refl _)
  · exact Mod.pure trivial

/-! ## Fields -/

theorem mod_str (j : Json) (f d : String) :
    Mod PG keep n k (fun s => strField j f d = some s) (K.ofRes (j.value (lit f) Json.getStr (lit d)) : K (World σ) Str) := by
  refine Mod.ofRes (fun _ h => (value_str_ok.1 h).2) ?_ ?_ fun i => nf_value_str _ _ _ i
  all_goals (rcases value_str_cases j (lit f) (lit d) with ⟨s, h⟩ | h <;> rw [h] <;> simp)

theorem mod_bool (j : Json) (f : String) (d : Bool) :
    Mod PG keep n k (fun s => boolField j f d = some s) (K.ofRes (j.value (lit f) Json.getBool d) : K (World σ) Bool) := by
  refine Mod.ofRes (fun _ h => (value_bool_ok.1 h).2) ?_ ?_ fun i => nf_value_bool _ _ _ i
  all_goals (rcases value_bool_cases j (lit f) d with ⟨s, h⟩ | h <;> rw [h] <;> simp)

theorem mod_int (j : Json) (f : String) (d : Int) (hw : j.isObj = true → ¬ Wild j f) :
    Mod PG keep n k (fun s => j.isObj = true ∧ intField j f d = some s)
      (K.ofRes (j.value (lit f) Json.getInt d) : K (World σ) Int) := by
  refine Mod.ofRes (fun _ h => value_int_ok.1 h) ?_ ?_ fun i => nf_value_int _ _ _ i
  all_goals (rcases value_int_cases j f d with ⟨s, h⟩ | h | ⟨h1, h2, _⟩)
  all_goals first | exact absurd h2 (hw h1) | (rw [h]; simp)

theorem parsed_json {j : Json} (h : Parsed j) {f : String} {d : Json} (hd : Parsed d) : Parsed (jsonField j f d) := by
  unfold jsonField
  cases j with
  | obj kvs =>
    cases hl : Json.lookup (lit f) kvs with
    | none => simpa [Json.find?, hl] using hd
    | some v =>
      have hm := Json.lookup_mem hl
      have hc : Json.canonO kvs = true := by
        have := h.1
        simp only [Json.canon, Bool.and_eq_true] at this
        exact this.2
      have : ∀ l : List (Str × Json), Json.canonO l = true → ∀ x ∈ l, x.2.canon = true := by
        intro l
        induction l with
        | nil => simp
        | cons y l ih =>
          intro hl x hx
          simp only [Json.canonO, Bool.and_eq_true] at hl
          rcases List.mem_cons.1 hx with rfl | hx
          · exact hl.1
          · exact ih hl.2 x hx
      simp only [Json.find?, hl, Option.getD_some]
      cases h.2 with
      | obj _ h2 => exact ⟨this _ hc _ hm, h2 _ hm⟩
  | _ => simpa [Json.find?] using hd

theorem mod_json (j : Json) (f : String) (d : Json) (hj : Parsed j) (hd : Parsed d) :
    Mod PG keep n k Parsed (K.ofRes (j.value (lit f) Json.getJson d) : K (World σ) Json) := by
  refine Mod.ofRes (fun a h => ?_) ?_ ?_ fun i => nf_value_json _ _ _ i
  · cases ho : j.isObj with
    | false => rw [value_nonobj ho] at h; cases h
    | true =>
      rw [jsonField_value ho] at h
      cases h
      exact parsed_json hj hd
  all_goals (rcases value_json_cases j (lit f) d with ⟨s, h⟩ | h <;> rw [h] <;> simp)

end

end Xeus
