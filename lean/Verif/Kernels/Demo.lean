import Verif.Kernels.Model
import Verif.Kernels.DemoSpec
import Verif.Kernels.Servers

/-!
# The kernels that come with the library: lemmas
-/

namespace Xeus

open Spec Kernels

variable {σ : Type}

/-! ## Objects -/

theorem find?_filled (l : List (String × Json)) (k : Str) : ∀ j : Json,
    (l.foldl (fun j kv => j.put (lit kv.1) kv.2) j).find? k =
      ((l.reverse.find? fun m => lit m.1 = k).map (·.2)).or (j.find? k) := by
  induction l with
  | nil => intro j; simp
  | cons x l ih =>
    intro j
    rw [List.foldl_cons, ih, Json.find?_put, List.reverse_cons, List.find?_append]
    cases List.find? (fun m => decide (lit m.1 = k)) l.reverse with
    | some y => simp
    | none => by_cases h : lit x.1 = k <;> simp [h]

theorem find?_reverse {α : Type} {f : α → Str} {k : Str} : ∀ l : List α, (l.map f).Nodup →
    (l.reverse.find? fun m => f m = k) = l.find? fun m => f m = k
  | [], _ => rfl
  | x :: l, h => by
    rw [List.map_cons, List.nodup_cons] at h
    rw [List.reverse_cons, List.find?_append, find?_reverse l h.2, List.find?_cons, List.find?_cons]
    by_cases hx : f x = k
    · have : l.find? (fun m => decide (f m = k)) = none := by
        rw [List.find?_eq_none]
        intro y hy hyk
        simp only [decide_eq_true_eq] at hyk
        exact h.1 (List.mem_map.2 ⟨y, hy, hyk.trans hx.symm⟩)
      simp [hx, this]
    · simp [hx]

theorem filled_isObj : ∀ (l : List (String × Json)) (j : Json), (l ≠ [] ∨ j.isObj = true) →
    (l.foldl (fun j kv => j.put (lit kv.1) kv.2) j).isObj = true
  | [], j, h => by simpa using h
  | x :: l, j, _ => filled_isObj l _ (.inr (Json.put_isObj _ _ _))

theorem members_filled {l : List (String × Json)} (hne : l ≠ []) (hn : (l.map fun m => lit m.1).Nodup) : Members l (filled l) := by
  refine ⟨filled_isObj l _ (.inl hne), fun k => ?_⟩
  rw [filled, find?_filled, find?_reverse (f := fun m : String × Json => lit m.1) l hn]
  simp [Json.find?]

theorem members_with {l : List (String × Json)} {j j' : Json} {k : String} {v : Json} (h : Members l j) (hk : lit k ∉ l.map fun m => lit m.1)
    (hw : WithMember j k v j') : Members (l ++ [(k, v)]) j' := by
  refine ⟨hw.2.1, fun k' => ?_⟩
  rw [hw.2.2, h.2, List.find?_append]
  by_cases hk' : k' = lit k
  · subst hk'
    have : l.find? (fun m => decide (lit m.1 = lit k)) = none := by
      rw [List.find?_eq_none]
      intro y hy hyk
      simp only [decide_eq_true_eq] at hyk
      exact hk (List.mem_map.2 ⟨y, hy, hyk⟩)
    simp [this]
  · have hk'' : ¬ lit k = k' := fun h => hk' h.symm
    cases List.find? (fun m => decide (lit m.1 = k')) l <;> simp [hk', hk'']

theorem printable_foldl {eh : ErrH} : ∀ (l : List (String × Json)) (j : Json), Printable eh j →
    (∀ m ∈ l, Utf8 (lit m.1) ∧ Printable eh m.2) → Printable eh (l.foldl (fun j kv => j.put (lit kv.1) kv.2) j)
  | [], _, hj, _ => hj
  | x :: l, _, hj, h => printable_foldl l _ (printable_put hj (h x List.mem_cons_self).1 (h x List.mem_cons_self).2)
      fun m hm => h m (List.mem_cons_of_mem _ hm)

theorem printable_filled {eh : ErrH} {l : List (String × Json)} (h : ∀ m ∈ l, Utf8 (lit m.1) ∧ Printable eh m.2) :
    Printable eh (filled l) := printable_foldl l _ ⟨rfl, fun _ => .null⟩ h

theorem printable_closed (eh : ErrH) {j : Json} (h : (j.canon && j.allStr utf8b) = true) : Printable eh j := by
  rw [Bool.and_eq_true] at h
  exact ⟨h.1, fun _ => (jsonUtf8_iff j).2 h.2⟩

theorem printable_str (eh : ErrH) {s : Str} (h : Utf8 s) : Printable eh (.str s) := ⟨rfl, fun _ => .str h⟩

theorem printable_int (eh : ErrH) {n : Int} (h : InInt n) : Printable eh (.int n) := by
  refine ⟨?_, fun _ => .int⟩
  have h1 := h.1
  have h2 := h.2
  simp only [intMin, intMax] at h1 h2
  simp [Json.canon, Json.inRange]
  omega

/-! ## Scripts -/

/-- Publish messages and return an answer. -/
def script (ps : List PubOp) (j : Json) : Prog σ Op Json := ps.foldr say (.ret j)

theorem script_mild {eh : ErrH} {thr : Prop} {ps : List PubOp} {j : Json} (h : ∀ p ∈ ps, Printable eh (pubContent p)) :
    Mild (σ := σ) eh thr (script ps j) := by
  induction ps with
  | nil => trivial
  | cons p ps ih =>
    refine ⟨ih fun p hp => h p (List.mem_cons_of_mem _ hp), fun hn => absurd (h p List.mem_cons_self) hn⟩

theorem script_yields {P : Json → Prop} {ps : List PubOp} {j : Json} (h : P j) : Yields (σ := σ) P (script ps j) := by
  induction ps with
  | nil => exact h
  | cons p ps ih =>
    intro r
    cases r with
    | ok _ => exact ih
    | error _ => trivial

/-- The publications, as types and contents. -/
def saidBy (ps : List PubOp) : List (String × Json) := ps.map fun p => ((Published p).1, pubContent p)

theorem script_run {env : Env} (hs : Sane env) {j : Json} (ps : List PubOp) : ∀ w : World σ, Parsed (w.parent .shell).header →
    (∀ p ∈ ps, Printable env.eh (pubContent p)) →
    ∃ es w', ((script ps j).exec (Op.sem env)).run w = (.ok j, w') ∧ Only w es w' ∧
      Says env (w.parent .shell).header (saidBy ps) es := by
  induction ps with
  | nil =>
    intro w _ _
    exact ⟨[], w, by simp only [script, List.foldr, Prog.exec, K.run_pure], ⟨rfl, rfl, rfl, rfl, rfl, rfl, rfl, rfl, by simp⟩, rfl⟩
  | cons p ps ih =>
    intro w hp hpr
    obtain ⟨e, w₁, he, hrun, ho⟩ := C76_sent env hs p w hp (hpr p List.mem_cons_self)
    obtain ⟨es, w₂, h₂, ho₂, hall⟩ := ih w₁ (by rw [ho.parent]; exact hp) fun p hp => hpr p (List.mem_cons_of_mem _ hp)
    refine ⟨e :: es, w₂, ?_, ?_, e, es, rfl, he, by rw [ho.parent] at hall; exact hall⟩
    · simp only [script, List.foldr_cons, say, Prog.exec, K.run_bind, K.run_attempt, hrun, K.captured_ok, K.andThen_ok]
      exact h₂
    · exact ⟨ho₂.parent.trans ho.parent, ho₂.st.trans ho.st, ho₂.count.trans ho.count, ho₂.input.trans ho.input,
        ho₂.hist.trans ho.hist, ho₂.comm.trans ho.comm, ho₂.shellQ.trans ho.shellQ, ho₂.stdinQ.trans ho.stdinQ,
        by rw [ho₂.out, ho.out, List.append_assoc]; rfl⟩

theorem atCall_shell {env : Env} {m : XMessage} {c : Chan} {w w₁ : World σ} {n : Int} {pre : List Ev} {k : Call}
    (h : AtCall env m c w n pre k w₁) : (w₁.parent .shell).header = shellParent m c w := by
  unfold shellParent
  split
  · rename_i hc; subst hc; rw [h.cur]
  · rename_i hc; rw [h.other _ (fun h => hc h.symm)]

theorem shellParent_parsed {env : Env} (hs : Sane env) {m : XMessage} {c : Chan} {w : World σ} {q : Multipart}
    (ha : Accepted env.C env.J env.auth q m) (hp : ParentsOk w) : Parsed (shellParent m c w) := by
  unfold shellParent
  split
  · exact (accepted_parsed hs ha).1
  · exact hp _

/-! ## Courses -/

variable {env : Env} {I : Interp σ} {q : Multipart} {m : XMessage} {c : Chan} {w : World σ}

theorem script_execute (hs : Sane env) (ha : Accepted env.C env.J env.auth q m) (hr : IsReq m .execute) {f : ExecFields}
    (hf : execFields m.body.content = some f) (hp : ParentsOk w) (hc : InInt w.count) (hc' : f.silent = false → InInt (w.count + 1))
    {ps : List PubOp} {j : Json} (he : execProg I w f = script ps j) (hpr : ∀ p ∈ ps, Printable env.eh (pubContent p))
    (hj : j.isObj = true) (hjp : Printable env.eh j) {s : Str} (hst : strField j "status" "error" = some s) (hne : s ≠ lit "error")
    {l : List (String × Json)} (hl : Members l j) (hk : lit "execution_count" ∉ l.map fun m => lit m.1) :
    ∃ pre, ExecAnnounce env m c w f pre ∧ Talks env m c w pre (execCall w f) (saidBy ps) "execute_reply"
      (Members (l ++ [("execution_count", .int (execCount w f))])) (execCount w f) (execEntries f) ((dispatch env I q c).run w) := by
  obtain ⟨w₁, pre, hat, hann, _, _, _, hok, _⟩ := (C24_execute env hs I q m c f ha hr hf w hp hc hc').1
  obtain ⟨es, w₂, hrun, ho, hsay⟩ := script_run hs (j := j) ps w₁
    (by rw [atCall_shell hat]; exact shellParent_parsed hs ha hp) hpr
  rw [← he] at hrun
  obtain ⟨j', hw, hpj, h⟩ := hok j w₂ s hrun (.inl hj) hst
  refine ⟨pre, hann, ?_⟩
  rcases h with ⟨_, md, rep, _, hrep, hend⟩ | ⟨hn, _⟩
  · have hcon := hend.1 fun h => hne h.2.2
    obtain ⟨b, hb, hout₁⟩ := hat.out
    obtain ⟨i, hi, hout⟩ := hcon.out
    refine ⟨hcon.ok, ⟨b, es, md, j', rep, i, hb, by rw [atCall_shell hat] at hsay; exact hsay, members_with hl hk hw, hrep, hi, ?_⟩,
      hcon.count.trans (ho.count.trans hat.count), ?_, hcon.comm.trans (ho.comm.trans hat.comm),
      hcon.input.trans (ho.input.trans hat.input), hcon.shellQ.trans (ho.shellQ.trans hat.shellQ),
      hcon.stdinQ.trans (ho.stdinQ.trans hat.stdinQ)⟩
    · rw [hout]
      show w₂.out ++ _ = _
      rw [ho.out, hout₁]
      simp
    · rw [hcon.hist]
      show w₂.hist ++ _ = _
      rw [ho.hist, hat.hist]
  · exact absurd (hpj hjp) hn

theorem ret_verbatim {k : Call} {p : Prog σ Op Json} {rt : String} {j : Json} (hv : Verbatim env I q m c w (Op.sem env) k p rt (· = .obj []))
    (hret : p = .ret j) (hjp : Printable env.eh j) {P : Json → Prop} (hP : P j) :
    Talks env m c w [] k [] rt P w.count [] ((dispatch env I q c).run w) := by
  obtain ⟨w₁, hat, hok, _⟩ := hv
  subst hret
  rcases hok j w₁ (by simp only [Prog.exec, K.run_pure]) with ⟨_, md, rep, _, hrep, hcon⟩ | ⟨hn, _⟩
  · obtain ⟨b, hb, hout₁⟩ := hat.out
    obtain ⟨i, hi, hout⟩ := hcon.out
    refine ⟨hcon.ok, ⟨b, [], md, j, rep, i, hb, rfl, hP, hrep, hi, ?_⟩, hcon.count.trans hat.count, ?_, hcon.comm.trans hat.comm,
      hcon.input.trans hat.input, hcon.shellQ.trans hat.shellQ, hcon.stdinQ.trans hat.stdinQ⟩
    · rw [hout, hout₁]; simp
    · rw [hcon.hist, hat.hist]; simp
  · exact absurd hjp hn

theorem ret_info (hv : KernelInfoCourse env I q m c w) {j : Json} (hret : I.kernelInfo = .ret j) (hj : j.isObj = true)
    (hjp : Printable env.eh j) {P : Json → Prop} (hP : ∀ j', WithMember j "protocol_version" (.str (lit "5.3")) j' → P j') :
    Talks env m c w [] .kernelInfo [] "kernel_info_reply" P w.count [] ((dispatch env I q c).run w) := by
  obtain ⟨w₁, hat, hok, _⟩ := hv
  obtain ⟨j', hw, hpj, h⟩ := hok j w₁ (by rw [hret]; simp only [Prog.exec, K.run_pure]) (.inl hj)
  rcases h with ⟨_, rep, hrep, hcon⟩ | ⟨hn, _⟩
  · obtain ⟨b, hb, hout₁⟩ := hat.out
    obtain ⟨i, hi, hout⟩ := hcon.out
    refine ⟨hcon.ok, ⟨b, [], _, j', rep, i, hb, rfl, hP j' hw, hrep, hi, ?_⟩, hcon.count.trans hat.count, ?_, hcon.comm.trans hat.comm,
      hcon.input.trans hat.input, hcon.shellQ.trans hat.shellQ, hcon.stdinQ.trans hat.stdinQ⟩
    · rw [hout, hout₁]; simp
    · rw [hcon.hist, hat.hist]; simp
  · exact absurd (hpj hjp) hn

end Xeus
