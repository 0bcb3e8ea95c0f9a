import Verif.Kernels.SureHandlers
import Verif.Kernels.Queries

/-!
# Requests that do no harm are handled without failure (no property statements here)
-/

namespace Xeus

open Spec K

variable {σ : Type}

theorem Has.next {G : World σ → Prop} {keep : Prop} {n k n₂ k₂ : Nat} {α β : Type} {P : α → Prop} {Q : Except Exc β → Prop}
    {m : K (World σ) α} {g : α → K (World σ) β} (h : Has G keep n k P m)
    (hg : ∀ a, P a → Sure G keep n₂ k₂ Q n k (g a)) : Sure G keep n₂ k₂ Q n k (m >>= g) := by
  refine Sure.bind (Sure.mono h ?_ (Nat.le_refl _) (Nat.le_refl _))
  rintro _ ⟨a, rfl, h⟩
  exact hg a h

theorem yields_imp {Ω α : Type} {keep : Prop} {P : α → Prop} {p : Prog σ Ω α} (h : keep → Yields P p) :
    Yields (fun a => keep → P a) p := by
  by_cases hk : keep
  · have := h hk
    clear h
    induction p with
    | ret a => exact fun _ => this
    | get g ih => exact fun s => ih s (this s)
    | set s g ih => exact ih this
    | call o g ih => exact fun r => ih r (this r)
    | throw e => trivial
    | ub s => trivial
    | hang => trivial
  · clear h
    induction p with
    | ret a => exact fun h => absurd h hk
    | get g ih => exact fun s => ih s
    | set s g ih => exact ih
    | call o g ih => exact fun r => ih r
    | throw e => trivial
    | ub s => trivial
    | hang => trivial

section
variable {env : Env} {I : Interp σ} {thr halt keep : Prop} {c₀ : Comms} {n k : Nat} {t : Chan}

local notation "PG" => Placid (σ := σ) env thr halt c₀

theorem mod_set (j : Json) (f : Str) (v : Json) {P : Json → Prop} (hp : ∀ j', j.set f v = .ok j' → P j') :
    Mod PG keep n k P (K.ofRes (j.set f v) : K (World σ) Json) := by
  refine Mod.ofRes hp ?_ ?_ fun i => nf_set _ _ _ i
  all_goals (cases j <;> simp [Json.set])

theorem strField_set {j j' v : Json} {f g d : String} (hne : lit f ≠ lit g) (h : j.set (lit f) v = .ok j')
    (hd : j = .null ∨ j.isObj = true) : strField j' g d = strField j g d := by
  rw [set_eq_put (hd.symm)] at h
  cases h
  unfold strField
  rw [Json.find?_put, if_neg hne]

theorem set_kind {j j' v : Json} {f : Str} (h : j.set f v = .ok j') : j = .null ∨ j.isObj = true := by
  cases j <;> simp [Json.set, Json.isObj] at h ⊢

theorem sure_interpExecute (hs : Sane env) (hI : MildInterp env.eh thr I) (hk : keep → Cheerful I) {code : Str} {exprs : Json}
    (hc : Utf8 code) (he : Parsed exprs) (silent store allow : Bool) :
    Sure PG keep 0 k (Std fun j => keep → strField j "status" "error" ≠ some (lit "error")) 1 k
      (interpExecute env I code silent store exprs allow) := by
  refine Sure.bind (n₁ := 0) (k₁ := k) (Sure.mono (sure_announce hs silent) ?_ (Nat.le_refl _) (Nat.le_refl _))
  rintro (e | a) ⟨_, h2⟩
  · exact ⟨Nat.le_refl _, Nat.le_refl _, Std.error (h2 e rfl)⟩
  refine Sure.after (P := InInt) (Has.read fun _ _ h => h).mod (fun m hm => ?_) (Nat.le_refl _) (Nat.le_refl _)
  refine Sure.after (mod_userCall hs _ (hI.execute _ _ _ _ _ _ hm hc he)
    (yields_imp fun h => hk h m code silent store exprs allow hc he)) (fun j hj => ?_) (Nat.le_refl _) (Nat.le_refl _)
  refine Sure.after (P := fun _ => True) (Has.read fun _ _ _ => trivial).mod (fun m _ => ?_) (Nat.le_refl _) (Nat.le_refl _)
  refine mod_set _ _ _ fun j' hj' h => ?_
  rw [strField_set (by decide) hj' (set_kind hj')]
  exact hj h

theorem sure_execute (hs : Sane env) (hI : MildInterp env.eh thr I) (hk : keep → Cheerful I) {m : XMessage}
    (hp : Parsed m.body.content) (hh : ¬ ExecWild m.body.content) (c : Chan) :
    Sure PG keep 0 0 (Std fun _ => True) 1 1 (executeRequest env I m c) := by
  refine Sure.mono (Sure.catchStd ?_) (fun _ h => h.std) (Nat.le_refl _) (Nat.le_refl _)
  unfold executeBody
  have z : ∀ n : Nat, 0 ≤ n := Nat.zero_le
  refine Sure.after (mod_str _ "code" "") (fun code h1 => ?_) (z _) (z _)
  refine Sure.after (mod_bool _ "silent" _) (fun silent h2 => ?_) (z _) (z _)
  refine Sure.after (mod_bool _ "store_history" _) (fun store h3 => ?_) (z _) (z _)
  refine Sure.after (mod_int _ "execution_count" _ fun ho hw => hh ⟨ho, by rw [h1]; rfl, by rw [h2]; rfl, by rw [h3]; rfl, hw⟩)
    (fun line h4 => ?_) (z _) (z _)
  refine Sure.after (mod_json _ "user_expressions" _ hp ⟨by decide, .obj (by simp) (by simp)⟩) (fun exprs h5 => ?_) (z _) (z _)
  refine Sure.after (mod_bool _ "allow_stdin" _) (fun allow _ => ?_) (z _) (z _)
  refine Sure.after (mod_bool _ "stop_on_error" _) (fun stop _ => ?_) (z _) (z _)
  refine Sure.after (has_metadata hs).mod (fun md _ => ?_) (z _) (z _)
  have hc : Utf8 code := parsed_str hp (utf8_lit (by decide)) h1
  refine Sure.bind (n₁ := 0) (k₁ := 1) (Sure.mono (sure_interpExecute hs hI hk hc h5 _ _ _) ?_ (Nat.le_refl _) (Nat.le_refl _))
  rintro (e | j) ⟨h6, h7⟩
  · exact ⟨z _, z _, Std.error (h7 e rfl)⟩
  refine Sure.after (mod_str _ "status" "error") (fun status h8 => ?_) (z _) (z _)
  refine Sure.after (mod_sendReply hs _ _ _ _) (fun _ _ => ?_) (z _) (z _)
  refine Sure.bind (n₁ := 0) (k₁ := 0) (Sure.mono (sure_store _ _ _ hc) ?_ (Nat.le_refl _) (Nat.le_refl _))
  rintro (e | a) ⟨_, h9⟩
  · exact ⟨z _, z _, Std.error (h9 e rfl)⟩
  refine mod_abort hs _ _ fun hk' he => ?_
  exact h6 j rfl hk' (by rw [h8, he])

theorem sure_throws {α : Type} {r : Res α} {e : Exc} (h : r = .exc e) (he : e.isStd = true) {P : α → Prop} :
    Mod PG keep n k P (K.ofRes r : K (World σ) α) := by
  subst h
  exact ⟨Nat.le_refl _, Nat.le_refl _, Std.error he⟩

theorem mod_onComms {α : Type} {a : CommAct} {f : Comms → Res (α × Comms)} {e : Exc} (h : f c₀ = .exc e) (he : e.isStd = true)
    {P : α → Prop} : Mod PG keep n k P (onComms a f : K (World σ) α) := by
  refine Sure.quiet fun w hw _ _ => ?_
  simp only [hw.comm, h]
  exact ⟨hw, trivial, trivial, trivial, .inr ⟨e, rfl, Std.error he⟩⟩

theorem sure_handle [Steady env] (hs : Sane env) (hI : MildInterp env.eh thr I) (hk : keep → Cheerful I) (hreg : c₀.reg = []) {m : XMessage}
    (hp : Parsed m.body.content) {r : Req} (hh : Harmless (c₀.names.map (·.1)) m.body.content r)
    (hst : r = .shutdown → halt) (c : Chan) : Sure PG keep 0 0 (Std fun _ => True) 1 1 (handle env I r m c) := by
  have z : ∀ n : Nat, 0 ≤ n := Nat.zero_le
  have dn : ∀ {m : K (World σ) Unit}, Mod PG keep 1 1 (fun _ => True) m → Sure PG keep 0 0 (Std fun _ => True) 1 1 m :=
    fun h => Sure.mono h (fun _ h => h) (z _) (z _)
  have utf : ∀ {code : Str}, strField m.body.content "code" "" = some code → Utf8 code :=
    fun h => parsed_str hp (utf8_lit (by decide)) h
  cases r with
  | execute => exact sure_execute hs hI hk hp hh c
  | complete =>
    refine Sure.after (mod_str _ "code" "") (fun code h1 => ?_) (z _) (z _)
    refine Sure.after (mod_int _ "cursor_pos" _ fun ho hw => hh ⟨ho, by rw [h1]; rfl, hw⟩) (fun pos h2 => ?_) (z _) (z _)
    exact Sure.after (P := fun _ => True)
      (mod_userCall hs _ (hI.complete _ _ (utf h1) (intField_range (by decide) h2.2)) (yields_true _))
      (fun j _ => dn (mod_sendReply hs _ _ _ _)) (z _) (z _)
  | inspect =>
    refine Sure.after (mod_str _ "code" "") (fun code h1 => ?_) (z _) (z _)
    refine Sure.after (mod_int _ "cursor_pos" _ fun ho hw => hh ⟨ho, by rw [h1]; rfl, .inl hw⟩) (fun pos h2 => ?_) (z _) (z _)
    refine Sure.after (mod_int _ "detail_level" _ fun ho hw => hh ⟨ho, by rw [h1]; rfl, .inr ⟨by rw [h2.2]; rfl, hw⟩⟩)
      (fun detail h3 => ?_) (z _) (z _)
    exact Sure.after (P := fun _ => True) (mod_userCall hs _ (hI.inspect _ _ _ (utf h1) (intField_range (by decide) h2.2)
      (intField_range (by decide) h3.2)) (yields_true _)) (fun j _ => dn (mod_sendReply hs _ _ _ _)) (z _) (z _)
  | history =>
    refine Sure.after (P := fun _ => True) (Mod.readR fun w hw hl => ⟨fun _ _ => trivial, fun s hu => ?_, ?_, fun j => ?_⟩)
      (fun j _ => dn (mod_sendReply hs _ _ _ _)) (z _) (z _)
    · exact (reliable_sure hw.hist hl hh).1 s hu
    · exact (reliable_sure hw.hist hl hh).2
    · exact nf_historyRequest hs.manager _ _ _
  | isComplete =>
    refine Sure.after (mod_str _ "code" "") (fun code h1 => ?_) (z _) (z _)
    exact Sure.after (P := fun _ => True) (mod_userCall hs _ (hI.isComplete _ (utf h1)) (yields_true _))
      (fun j _ => dn (mod_sendReply hs _ _ _ _)) (z _) (z _)
  | commInfo =>
    refine Sure.after (P := fun _ => True) ?_ (fun wanted _ => ?_) (z _) (z _)
    · split
      · exact Mod.pure trivial
      · exact Sure.mono (mod_str _ "target_name" "") (fun _ h => ⟨fun _ _ => trivial, h.2⟩) (Nat.le_refl _) (Nat.le_refl _)
    · refine Sure.after (P := fun _ => True) (Mod.readR fun w hw hl => ?_) (fun j _ => dn (mod_sendReply hs _ _ _ _)) (z _) (z _)
      rw [hw.comm, hreg]
      exact ⟨fun _ _ => trivial, fun s h => (by cases h), fun h => (by cases h), fun j h => (by cases h)⟩
  | commOpen =>
    refine Sure.after (P := fun _ => False) ?_ (fun _ h => h.elim) (z _) (z _)
    rcases hh with hn | ⟨name, h1, h2⟩
    · exact mod_onComms (e := .typeError) (by rw [openLookup_notText hn]; rfl) rfl
    · exact mod_onComms (by rw [openLookup_unknown h1 (alGet_none.2 h2)]; rfl) rfl
  | commClose =>
    refine Sure.after (P := fun _ => False) (Mod.readR fun w hw hl => ?_) (fun _ h => h.elim) (z _) (z _)
    rcases hh with hn | ⟨id, h1, h2⟩
    · rw [msgLookup_notText hn]
      exact ⟨fun _ h => (by cases h), fun s h => (by cases h), fun h => (by cases h), fun j h => (by cases h)⟩
    · rw [msgLookup_unknown h1 h2 (by rw [hw.comm, hreg]; rfl)]
      exact ⟨fun _ h => (by cases h), fun s h => (by cases h), fun h => (by cases h), fun j h => (by cases h)⟩
  | commMsg =>
    refine Sure.after (P := fun _ => False) (Mod.readR fun w hw hl => ?_) (fun _ h => h.elim) (z _) (z _)
    rcases hh with hn | ⟨id, h1, h2⟩
    · rw [msgLookup_notText hn]
      exact ⟨fun _ h => (by cases h), fun s h => (by cases h), fun h => (by cases h), fun j h => (by cases h)⟩
    · rw [msgLookup_unknown h1 h2 (by rw [hw.comm, hreg]; rfl)]
      exact ⟨fun _ h => (by cases h), fun s h => (by cases h), fun h => (by cases h), fun j h => (by cases h)⟩
  | kernelInfo =>
    refine Sure.after (P := fun _ => True) (mod_userCall hs _ hI.kernelInfo (yields_true _)) (fun j _ => ?_) (z _) (z _)
    exact Sure.after (P := fun _ => True) (mod_set _ _ _ fun _ _ => trivial) (fun j _ => dn (mod_sendReply hs _ _ _ _)) (z _) (z _)
  | shutdown =>
    refine Sure.after (mod_bool _ "restart" _) (fun b _ => ?_) (z _) (z _)
    refine Sure.after (P := fun _ => True) (mod_userCall hs _ hI.shutdown (yields_true _)) (fun _ _ => ?_) (z _) (z _)
    refine Sure.after (has_emit (e := .stop) ⟨fun _ h => (by cases h), fun _ => hst rfl⟩).mod (fun _ _ => ?_) (z _) (z _)
    exact Sure.after (mod_publish hs (utf8_lit (by decide)) _) (fun _ _ => dn (mod_sendReply hs _ _ _ _)) (z _) (z _)
  | interrupt =>
    exact Sure.after (mod_publish hs (utf8_lit (by decide)) _) (fun _ _ => dn (mod_sendReply hs _ _ _ _)) (z _) (z _)
  | debug =>
    show Sure _ _ _ _ _ _ _ (debugRequest env I m c)
    unfold debugRequest
    rw [hI.debug]
    exact dn (Mod.pure trivial)

theorem getHandler_isReq {m : XMessage} {ty : Str} {r : Req} (ht : typeOf m.body.header = some ty) (h : getHandler ty = some r) :
    IsReq m r := by
  rw [IsReq, ht, getHandler_some h]

theorem has_setParent (ids : List Str) {h : Json} (hp : Parsed h) (c : Chan) :
    Has PG keep n k (fun _ => True) (setParent ids h c : K (World σ) Unit) := by
  refine Has.bind (P := fun _ => True) ?_ fun _ _ => ?_
  · refine Sure.quiet fun w hw _ _ => ⟨⟨fun c' => ?_, hw.comm, hw.count, hw.hist, hw.queue, hw.calm⟩, rfl, rfl, rfl,
      .inl ⟨_, rfl, _, rfl, trivial⟩⟩
    show Parsed (if c' = c then _ else _ : Parent).header
    split
    · exact hw.parents c'
    · exact hw.parents c'
  · refine Sure.quiet fun w hw _ _ => ⟨⟨fun c' => ?_, hw.comm, hw.count, hw.hist, hw.queue, hw.calm⟩, rfl, rfl, rfl,
      .inl ⟨_, rfl, _, rfl, trivial⟩⟩
    show Parsed (if c' = c then _ else _ : Parent).header
    split
    · exact hp
    · exact hw.parents c'

theorem has_status (hs : Sane env) {s : String} (h : Utf8 (lit s)) (c : Chan) :
    Has PG keep n k (fun _ => True) (publishStatus env (lit s) c : K (World σ) Unit) :=
  has_publish hs (utf8_lit (by decide)) (printable_put ⟨by decide, fun _ => .null⟩ (utf8_lit (by decide)) (str_printable fun _ => h)) c

theorem sure_dispatch [Steady env] (hs : Sane env) (hI : MildInterp env.eh thr I) (hk : keep → Cheerful I) (hreg : c₀.reg = [])
    {q : Multipart} (hq : Proper env (c₀.names.map (·.1)) q)
    (hst : Shuts env q → halt) (c : Chan) :
    Sure PG keep 0 0 (Val? fun _ => True) 1 1 (dispatch env I q c) := by
  have z : ∀ n : Nat, 0 ≤ n := Nat.zero_le
  unfold dispatch
  rcases deserialize_cases env.C env.J env.auth q with ⟨m, ha, h⟩ | ⟨_, e, h, he⟩ | ⟨h, _⟩
  · rw [h]
    show Sure _ _ _ _ _ _ _ (dispatchMsg env I m c)
    obtain ⟨hph, _, _, hpc⟩ := accepted_parsed hs ha
    obtain ⟨⟨ty, ht⟩, hr⟩ := hq.2 m ha
    refine Has.next (has_log hs _) fun _ _ => ?_
    refine Has.next (has_setParent _ hph _) fun _ _ => ?_
    refine Has.next (has_status hs (utf8_lit (by decide)) _) fun _ _ => ?_
    refine Has.next (P := fun x => x = ty) (Has.ofRes (value_typeOf ht) rfl) ?_
    intro ty' hty
    subst hty
    refine Sure.bind (n₁ := 0) (k₁ := 0) (Sure.mono (Q := Val? fun _ => True) (n₁ := 0) (k₁ := 0) ?_ ?_ (z _) (z _))
    · unfold handleType
      cases hg : getHandler ty' with
      | none => exact ⟨z _, z _, _, rfl, trivial⟩
      | some r => exact Sure.catchStd (sure_handle hs hI hk hreg hpc (hr r (getHandler_isReq ht hg))
        (fun h => hst ⟨m, ha, h ▸ getHandler_isReq ht hg⟩) c)
    · rintro _ ⟨_, rfl, _⟩
      exact has_status hs (utf8_lit (by decide)) _
  · rw [h]
    show Sure _ _ _ _ _ _ _ (if e.isStd then _ else _)
    rw [he]
    exact ⟨z _, z _, _, rfl, trivial⟩
  · exact absurd h hq.1

end

end Xeus
