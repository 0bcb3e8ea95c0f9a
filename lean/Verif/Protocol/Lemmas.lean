import Verif.Protocol.Spec
import Verif.KernelConc.Model
import Verif.Kernel.Monad

/-!
# What programs send, whatever others do between their steps: lemmas (no property statements here)
-/

namespace Xeus.Protocol

open Xeus Spec

variable {σ α β : Type} {P : Ev → Prop}

/-- Whatever others do between the steps of the program, the events it adds are `P` and its value is `Q`. -/
def Utters (P : Ev → Prop) (Q : α → Prop) : K (World σ) α → Prop
  | .done r => ∀ a, r = .ok a → Q a
  | .act f k => ∀ w : World σ, (∃ es, (f w).2.out = w.out ++ es ∧ ∀ e ∈ es, P e) ∧
      (∀ b, (f w).1 = .ok b → Utters P Q (k (.ok b))) ∧ ∀ e, (f w).1 = .exc e → Utters P Q (k (.error e))

namespace Utters

theorem mono {Q Q' : α → Prop} {m : K (World σ) α} (h : Utters P Q m) (hQ : ∀ a, Q a → Q' a) : Utters P Q' m := by
  induction m with
  | done r => exact fun a ha => hQ a (h a ha)
  | act f k ih => exact fun w => ⟨(h w).1, fun b hb => ih _ ((h w).2.1 b hb), fun e he => ih _ ((h w).2.2 e he)⟩

theorem bind {Q : α → Prop} {Q' : β → Prop} {m : K (World σ) α} {g : α → K (World σ) β} (h : Utters P Q m)
    (hg : ∀ a, Q a → Utters P Q' (g a)) : Utters P Q' (m >>= g) := by
  show Utters P Q' (m.bind g)
  induction m with
  | done r =>
    cases r with
    | ok a => exact hg a (h a rfl)
    | exc e => exact fun a ha => by cases ha
    | ub w => exact fun a ha => by cases ha
    | hang => exact fun a ha => by cases ha
  | act f k ih => exact fun w => ⟨(h w).1, fun b hb => ih _ ((h w).2.1 b hb), fun e he => ih _ ((h w).2.2 e he)⟩

/-- The value does not matter. -/
theorem seq {Q : α → Prop} {Q' : β → Prop} {m : K (World σ) α} {g : α → K (World σ) β} (h : Utters P Q m)
    (hg : ∀ a, Utters P Q' (g a)) : Utters P Q' (m >>= g) := h.bind fun a _ => hg a

theorem attempt {Q : α → Prop} {m : K (World σ) α} (h : Utters P Q m) : Utters P (fun r => ∀ a, r = .ok a → Q a) m.attempt := by
  induction m with
  | done r =>
    cases r with
    | ok a => intro r hr b hb; cases hr; cases hb; exact h a rfl
    | exc e => intro r hr b hb; cases hr; cases hb
    | ub w => intro r hr; cases hr
    | hang => intro r hr; cases hr
  | act f k ih => exact fun w => ⟨(h w).1, fun b hb => ih _ ((h w).2.1 b hb), fun e he => ih _ ((h w).2.2 e he)⟩

theorem pure {Q : α → Prop} {a : α} (h : Q a) : Utters P Q (Pure.pure a : K (World σ) α) := fun _ hb => by cases hb; exact h

theorem throw {Q : α → Prop} (e : Exc) : Utters P Q (K.throw e : K (World σ) α) := fun _ hb => by cases hb

theorem ofRes {Q : α → Prop} {r : Res α} (h : ∀ a, r = .ok a → Q a) : Utters P Q (K.ofRes r : K (World σ) α) := h

theorem ofRes' {r : Res α} : Utters P (fun _ => True) (K.ofRes r : K (World σ) α) := fun _ _ => trivial

theorem lift {Q : α → Prop} {f : World σ → Res α × World σ} (h1 : ∀ w, (f w).2.out = w.out)
    (h2 : ∀ w a, (f w).1 = .ok a → Q a) : Utters P Q (K.lift f) := fun w =>
  ⟨⟨[], by simp [h1], by simp⟩, fun b hb a ha => by cases ha; exact h2 w b hb, fun _ _ a ha => by cases ha⟩

theorem read (f : World σ → α) : Utters P (fun _ => True) (K.read f) := lift (fun _ => rfl) fun _ _ _ => trivial

theorem readR {Q : α → Prop} {f : World σ → Res α} (h : ∀ w a, f w = .ok a → Q a) : Utters P Q (K.readR f) := lift (fun _ => rfl) h

theorem modify {f : World σ → World σ} (h : ∀ w, (f w).out = w.out) : Utters P (fun _ => True) (K.modify f) :=
  lift h fun _ _ _ => trivial

theorem emit {e : Ev} (h : P e) : Utters P (fun _ => True) (Xeus.emit e : K (World σ) Unit) := fun w =>
  ⟨⟨[e], rfl, by simpa using h⟩, fun _ _ _ _ => trivial, fun _ _ a ha => by cases ha⟩

theorem catchStd {Q : α → Prop} {m : K (World σ) α} {g : Exc → K (World σ) α} (h : Utters P Q m) (hg : ∀ e, Utters P Q (g e)) :
    Utters P Q (K.catchStd m g) := by
  refine Utters.bind h.attempt fun r hr => ?_
  cases r with
  | ok a => exact pure (hr a rfl)
  | error e =>
    show Utters P Q (if e.isStd then g e else K.throw e)
    split
    · exact hg e
    · exact throw e

theorem step {Q : α → Prop} {m m' : K (World σ) α} {w w' : World σ} (h : Utters P Q m) (hs : m.step w = some (m', w')) :
    (∃ es, w'.out = w.out ++ es ∧ ∀ e ∈ es, P e) ∧ Utters P Q m' := by
  cases m with
  | done r => cases hs
  | act f k =>
    obtain ⟨h1, h2, h3⟩ := h w
    simp only [K.step, Option.some.injEq] at hs
    rcases hf : f w with ⟨r, w₁⟩
    rw [hf] at hs h1 h2 h3
    cases r with
    | ok b => simp only [Prod.mk.injEq] at hs; obtain ⟨rfl, rfl⟩ := hs; exact ⟨h1, h2 b rfl⟩
    | exc e => simp only [Prod.mk.injEq] at hs; obtain ⟨rfl, rfl⟩ := hs; exact ⟨h1, h3 e rfl⟩
    | ub _ => simp only [Prod.mk.injEq] at hs; obtain ⟨rfl, rfl⟩ := hs; exact ⟨h1, fun a ha => by cases ha⟩
    | hang => simp only [Prod.mk.injEq] at hs; obtain ⟨rfl, rfl⟩ := hs; exact ⟨h1, fun a ha => by cases ha⟩

theorem run {Q : α → Prop} {m : K (World σ) α} (h : Utters P Q m) (w : World σ) : ∃ es, (m.run w).2.out = w.out ++ es ∧ ∀ e ∈ es, P e := by
  induction m generalizing w with
  | done r => exact ⟨[], by simp [K.run], by simp⟩
  | act f k ih =>
    obtain ⟨⟨es, h1, h1'⟩, h2, h3⟩ := h w
    simp only [K.run]
    rcases hf : f w with ⟨r, w₁⟩
    rw [hf] at h1 h2 h3
    cases r with
    | ok b =>
      obtain ⟨es', h4, h5⟩ := ih _ (h2 b rfl) w₁
      exact ⟨es ++ es', by rw [← List.append_assoc]; exact h4.trans (congrArg (· ++ es') h1), fun e he => (List.mem_append.1 he).elim (h1' e) (h5 e)⟩
    | exc b =>
      obtain ⟨es', h4, h5⟩ := ih _ (h3 b rfl) w₁
      exact ⟨es ++ es', by rw [← List.append_assoc]; exact h4.trans (congrArg (· ++ es') h1), fun e he => (List.mem_append.1 he).elim (h1' e) (h5 e)⟩
    | ub _ => exact ⟨es, h1, h1'⟩
    | hang => exact ⟨es, h1, h1'⟩

end Utters

/-- A state reached by two threads: everything in the record is `P` if everything the handlers do is. -/
theorem said_reach {env : Env} {I : Interp σ} {st : Start σ} {s : Conc σ} (h : CReach env I st s)
    (hd : ∀ q c, Utters P (fun _ => True) (dispatch env I q c)) :
    (∀ e ∈ s.w.out, P e) ∧ ∀ t, Utters P (fun _ => True) (s.prog t) := by
  have set : ∀ {s : Conc σ} {p : K (World σ) Unit} (t : Chan), (∀ t, Utters P (fun _ => True) (s.prog t)) → Utters P (fun _ => True) p →
      ∀ t', Utters P (fun _ => True) (setProg s t p t') := by
    intro s p t h hp t'
    unfold setProg
    split
    · exact hp
    · exact h t'
  induction h with
  | start => exact ⟨by simp [st.out], fun _ _ _ => trivial⟩
  | step _ hs ih =>
    cases hs with
    | arriveShell => exact ih
    | arriveControl => exact ih
    | arriveStdin => exact ih
    | takeShell => exact ⟨ih.1, set _ ih.2 (hd _ _)⟩
    | takeControl => exact ⟨ih.1, set _ ih.2 (hd _ _)⟩
    | act t p w' hp =>
      obtain ⟨⟨es, h1, h2⟩, h3⟩ := (ih.2 t).step hp
      refine ⟨fun e he => ?_, set _ ih.2 h3⟩
      replace he : e ∈ w'.out := he
      rw [h1] at he
      exact (List.mem_append.1 he).elim (ih.1 e) (h2 e)

/-! ## The kernel -/

/-- The content is one the protocol or the deviations know. -/
abbrev Good (t : Str) (c : Json) : Prop := Documented t c ∨ Deviates t c

variable {env : Env} {I : Interp σ}

/-- The event is no message, or one of a type that is not considered, or one with a content that is known. -/
def KnownOn (T : Str → Prop) (e : Ev) : Prop := bodyOf e = none ∨ ∃ t c, Says e t c ∧ (T t → Good t c)

/-- The calls are as required if types are considered that depend on them. -/
def OpOn (T : Str → Prop) : Op → Prop
  | .pub p => T p.type → PubOk p
  | .commSend k _ _ data _ => T k.type → Dict data
  | _ => True

def DOpOn (T : Str → Prop) : DOp → Prop
  | .base o => OpOn T o
  | .toShell _ => True

structure ConformsOn (T : Str → Prop) (I : Interp σ) : Prop where
  execute : ∀ n code silent store exprs allow,
    Obeys (OpOn T) (fun c => T (lit "execute_reply") → Fine c ∨ Failed c) (I.execute n code silent store exprs allow)
  complete : ∀ code pos, Obeys (OpOn T) (fun c => T (lit "complete_reply") → Documented (lit "complete_reply") c) (I.complete code pos)
  inspect : ∀ code pos detail, Obeys (OpOn T) (fun c => T (lit "inspect_reply") → Documented (lit "inspect_reply") c) (I.inspect code pos detail)
  isComplete : ∀ code, Obeys (OpOn T) (fun c => T (lit "is_complete_reply") → Documented (lit "is_complete_reply") c) (I.isComplete code)
  kernelInfo : Obeys (OpOn T) (fun c => T (lit "kernel_info_reply") → Fine c ∧ Info c ∨ Failed c) I.kernelInfo
  shutdown : Obeys (OpOn T) (fun _ => True) I.shutdown
  internal : ∀ j, Obeys (OpOn T) (fun _ => True) (I.internal j)
  target : ∀ cb a m, Obeys (OpOn T) (fun _ => True) (I.target cb a m)
  handler : ∀ h m, Obeys (OpOn T) (fun _ => True) (I.handler h m)
  debug : ∀ d, I.debug = some d → ∀ h c, Obeys (DOpOn T) (fun _ => True) (d h c)

theorem obeys_mono {Ω : Type} {ok ok' : Ω → Prop} {Q Q' : α → Prop} (ho : ∀ o, ok o → ok' o) (hQ : ∀ a, Q a → Q' a) {p : Prog σ Ω α}
    (h : Obeys ok Q p) : Obeys ok' Q' p := by
  induction p with
  | ret a => exact hQ a h
  | throw e => trivial
  | ub w => trivial
  | hang => trivial
  | get k ih => exact fun s => ih s (h s)
  | set s k ih => exact ih h
  | call o k ih => exact ⟨ho o h.1, fun r => ih r (h.2 r)⟩

theorem obeys_all {Ω : Type} {ok : Ω → Prop} {Q : α → Prop} (ho : ∀ o, ok o) (hQ : ∀ a, Q a) (p : Prog σ Ω α) : Obeys ok Q p := by
  induction p with
  | ret a => exact hQ a
  | throw e => trivial
  | ub w => trivial
  | hang => trivial
  | get k ih => exact fun s => ih s
  | set s k ih => exact ih
  | call o k ih => exact ⟨ho o, fun r => ih r⟩

theorem opOn_of {T : Str → Prop} (o : Op) (h : OpOk o) : OpOn T o := by
  cases o <;> first | trivial | exact fun _ => h

theorem dopOn_of {T : Str → Prop} (o : DOp) (h : DOpOk o) : DOpOn T o := by
  cases o with
  | base o => exact opOn_of o h
  | toShell j => trivial

theorem Conforming.on {I : Interp σ} (h : Conforming I) (T : Str → Prop) : ConformsOn T I where
  execute n code silent store exprs allow := obeys_mono opOn_of (fun _ h _ => h) (h.execute n code silent store exprs allow)
  complete code pos := obeys_mono opOn_of (fun _ h _ => h) (h.complete code pos)
  inspect code pos detail := obeys_mono opOn_of (fun _ h _ => h) (h.inspect code pos detail)
  isComplete code := obeys_mono opOn_of (fun _ h _ => h) (h.isComplete code)
  kernelInfo := obeys_mono opOn_of (fun _ h _ => h) h.kernelInfo
  shutdown := obeys_mono opOn_of (fun _ h => h) h.shutdown
  internal j := obeys_mono opOn_of (fun _ h => h) (h.internal j)
  target cb a m := obeys_mono opOn_of (fun _ h => h) (h.target cb a m)
  handler k m := obeys_mono opOn_of (fun _ h => h) (h.handler k m)
  debug d hd k c := obeys_mono dopOn_of (fun _ h => h) (h.debug d hd k c)

theorem opOn_own (o : Op) : OpOn (· ∈ kernelTypes) o := by
  cases o with
  | pub p =>
    intro h
    cases p with
    | stream n t => exact absurd (show lit "stream" ∈ kernelTypes from h) (by decide +kernel)
    | display d m t => exact absurd (show lit "display_data" ∈ kernelTypes from h) (by decide +kernel)
    | updateDisplay d m t => exact absurd (show lit "update_display_data" ∈ kernelTypes from h) (by decide +kernel)
    | execResult n d m => exact absurd (show lit "execute_result" ∈ kernelTypes from h) (by decide +kernel)
    | execInput c n => trivial
    | execError n v t => trivial
    | clearOutput b => trivial
  | commSend k a md data bufs =>
    intro h
    revert h
    cases k <;> exact fun h => absurd h (by decide +kernel)
  | _ => trivial

theorem dopOn_own (o : DOp) : DOpOn (· ∈ kernelTypes) o := by
  cases o with
  | base o => exact opOn_own o
  | toShell j => trivial

/-- Nothing is required for the types the kernel makes the contents of. -/
theorem conforms_own (I : Interp σ) : ConformsOn (· ∈ kernelTypes) I where
  execute _ _ _ _ _ _ := obeys_all opOn_own (fun _ h => absurd h (by decide +kernel)) _
  complete _ _ := obeys_all opOn_own (fun _ h => absurd h (by decide +kernel)) _
  inspect _ _ _ := obeys_all opOn_own (fun _ h => absurd h (by decide +kernel)) _
  isComplete _ := obeys_all opOn_own (fun _ h => absurd h (by decide +kernel)) _
  kernelInfo := obeys_all opOn_own (fun _ h => absurd h (by decide +kernel)) _
  shutdown := obeys_all opOn_own (fun _ => trivial) _
  internal _ := obeys_all opOn_own (fun _ => trivial) _
  target _ _ _ := obeys_all opOn_own (fun _ => trivial) _
  handler _ _ := obeys_all opOn_own (fun _ => trivial) _
  debug _ _ _ _ := obeys_all dopOn_own (fun _ => trivial) _

theorem knownOn_iff {e : Ev} : KnownOn (fun _ => True) e ↔ Known e :=
  or_congr_right ⟨fun ⟨t, c, h1, h2⟩ => ⟨t, c, h1, h2 trivial⟩, fun ⟨t, c, h1, h2⟩ => ⟨t, c, h1, fun _ => h2⟩⟩

section

variable {T : Str → Prop}

theorem headerJson_type (id user session date type : Str) : (headerJson id user session date type).find? (lit "msg_type") = some (.str type) := by
  simp (decide := true) [headerJson, Json.find?_put]

theorem utters_header (t : Str) : Utters P (fun h => h.find? (lit "msg_type") = some (.str t)) (makeHeader (σ := σ) env t) := by
  refine Utters.seq (Q := fun _ => True) (.lift (fun _ => rfl) fun _ _ _ => trivial) fun _ => ?_
  refine Utters.seq (Q := fun _ => True) (.lift (fun _ => rfl) fun _ _ _ => trivial) fun _ => ?_
  exact .pure (headerJson_type _ _ _ _ _)

theorem utters_publish {t : Str} {md ct : Json} {bufs : List Frame} {c : Chan} (h : T t → Good t ct) :
    Utters (KnownOn T) (fun _ => True) (publishMessage (σ := σ) env t md ct bufs c) := by
  refine (utters_header t).bind fun hd hh => ?_
  refine (Utters.read _).seq fun _ => Utters.ofRes'.seq fun _ => Utters.ofRes'.seq fun _ => .emit ?_
  exact .inr ⟨t, ct, ⟨_, rfl, hh, rfl⟩, h⟩

theorem utters_replyTo {ids : List Str} {t : Str} {par md ct : Json} {c : Chan} (h : T t → Good t ct) :
    Utters (KnownOn T) (fun _ => True) (sendReplyTo (σ := σ) env ids t par md ct c) := by
  refine (utters_header t).bind fun hd hh => ?_
  refine Utters.ofRes'.seq fun _ => Utters.ofRes'.seq fun _ => .emit ?_
  exact .inr ⟨t, ct, ⟨_, rfl, hh, rfl⟩, h⟩

theorem utters_reply {t : Str} {md ct : Json} {c : Chan} (h : T t → Good t ct) :
    Utters (KnownOn T) (fun _ => True) (sendReply (σ := σ) env t md ct c) :=
  (Utters.read _).seq fun _ => (Utters.read _).seq fun _ => utters_replyTo h

theorem utters_dispatchStdin (q : Multipart) : Utters (KnownOn T) (fun _ => True) (dispatchStdin (σ := σ) env q) :=
  .catchStd (Utters.ofRes'.seq fun _ => Utters.ofRes'.seq fun _ => Utters.ofRes'.seq fun _ => .modify fun _ => rfl) fun _ => .pure trivial

theorem utters_sendStdin {t : Str} {md ct : Json} (h : T t → Good t ct) : Utters (KnownOn T) (fun _ => True) (sendStdin (σ := σ) env t md ct) := by
  refine (Utters.read _).seq fun _ => (utters_header t).bind fun hd hh => (Utters.read _).seq fun _ => Utters.ofRes'.seq fun _ =>
    Utters.ofRes'.seq fun _ => (Utters.emit (.inr ⟨t, ct, ⟨_, rfl, hh, rfl⟩, h⟩)).seq fun _ => ?_
  refine Utters.seq (Q := fun _ => True) (.lift (fun w => ?_) fun _ _ _ => trivial) fun q => utters_dispatchStdin q
  cases w.stdinQ <;> rfl

theorem utters_input (prompt : Str) (pwd : Bool) : Utters (KnownOn T) (fun _ => True) (blockingInput (σ := σ) env prompt pwd) := by
  refine (Utters.modify fun _ => rfl).seq fun _ => ?_
  refine (utters_sendStdin fun _ => .inr ?_).seq fun _ => (Utters.read _).seq fun _ => (Utters.modify fun _ => rfl).seq fun _ => .pure trivial
  have : (Json.put .null (lit "prompt") (.str prompt)).put (lit "pwd") (.bool pwd) =
      .obj [(lit "prompt", .str prompt), (lit "pwd", .bool pwd)] := by
    simp (decide := true) [Json.put, Json.insertKV]
  rw [this]
  exact .input prompt pwd

theorem documented_of {i : Nat} {t : String} {Q : Json → Prop} {c : Json} (h : table[i]? = some (t, Q)) (hc : Q c) : Documented (lit t) c :=
  ⟨_, List.mem_of_getElem? h, rfl, hc⟩

theorem has_put_self {j v : Json} {k : String} {Q : Json → Prop} (h : Q v) : Has (j.put (lit k) v) k Q :=
  ⟨v, by simp [Json.find?_put], h⟩

theorem has_put_ne {j v : Json} {k k' : String} {Q : Json → Prop} (hk : lit k' ≠ lit k) (h : Has j k Q) : Has (j.put (lit k') v) k Q := by
  obtain ⟨x, h1, h2⟩ := h
  exact ⟨x, by rw [Json.find?_put, if_neg hk]; exact h1, h2⟩

theorem listOf_texts (l : List Str) : ListOf Text (.arr (l.map .str)) := by
  refine ⟨_, rfl, fun x hx => ?_⟩
  obtain ⟨s, _, rfl⟩ := List.mem_map.1 hx
  exact ⟨s, rfl⟩

theorem pub_documented {p : PubOp} (h : PubOk p) : Documented p.type p.content := by
  cases p with
  | stream n t =>
    refine documented_of (i := 1) rfl ⟨?_, ?_⟩
    · rcases h with rfl | rfl <;> simp (decide := true) [PubOp.content, Has, Json.find?_put, Const]
    · simp (decide := true) [PubOp.content, Has, Json.find?_put, Text]
  | display d m t =>
    refine documented_of (i := 2) rfl ⟨?_, ?_, ?_⟩ <;> simp (decide := true) [PubOp.content, Has, Json.find?_put, h.1, h.2.1, h.2.2]
  | updateDisplay d m t =>
    refine documented_of (i := 3) rfl ⟨?_, ?_, ?_⟩ <;> simp (decide := true) [PubOp.content, Has, Json.find?_put, h.1, h.2.1, h.2.2]
  | execInput c n =>
    refine documented_of (i := 4) rfl ⟨?_, ?_⟩ <;> simp (decide := true) [PubOp.content, Has, Json.find?_put, Text, Whole]
  | execResult n d m =>
    refine documented_of (i := 5) rfl ⟨?_, ?_, ?_⟩ <;> simp (decide := true) [PubOp.content, Has, Json.find?_put, Whole, h.1, h.2]
  | execError n v t =>
    refine documented_of (i := 6) rfl ⟨?_, ?_, ?_⟩ <;> simp (decide := true) [PubOp.content, Has, Json.find?_put, Text, listOf_texts]
  | clearOutput b => refine documented_of (i := 7) rfl ?_; simp (decide := true) [PubOp.content, Has, Json.find?_put, Flag]

theorem comm_documented {s : Comms} {a : Nat} {k : CommMsg} {data : Json} {r : Str × Json} (h : s.outgoing a k data = .ok r) (hd : Dict data) :
    Documented r.1 r.2 := by
  simp only [Comms.outgoing] at h
  obtain ⟨c, _, h⟩ := Res.bind_eq_ok.1 h
  obtain ⟨n, _, h⟩ := Res.bind_eq_ok.1 h
  split at h
  · cases h
    cases k with
    | open_ =>
      refine documented_of (i := 8) rfl ⟨?_, ?_, ?_⟩ <;>
        simp (decide := true) [commContent, Has, Json.find?_put, Text, hd]
    | msg =>
      refine documented_of (i := 9) rfl ⟨?_, ?_⟩ <;>
        simp (decide := true) [commContent, Has, Json.find?_put, Text, hd]
    | close =>
      refine documented_of (i := 10) rfl ⟨?_, ?_⟩ <;>
        simp (decide := true) [commContent, Has, Json.find?_put, Text, hd]
  · cases h

theorem comm_type {s : Comms} {a : Nat} {k : CommMsg} {data : Json} {r : Str × Json} (h : s.outgoing a k data = .ok r) : r.1 = k.type := by
  simp only [Comms.outgoing] at h
  obtain ⟨c, _, h⟩ := Res.bind_eq_ok.1 h
  obtain ⟨n, _, h⟩ := Res.bind_eq_ok.1 h
  split at h
  · cases h; rfl
  · cases h

theorem utters_onComms (act : CommAct) (f : Comms → Res (α × Comms)) : Utters P (fun _ => True) (onComms (σ := σ) act f) := by
  refine .lift (fun w => ?_) fun _ _ _ => trivial
  cases f w.comm <;> rfl

theorem utters_op {o : Op} (h : OpOn T o) : Utters (KnownOn T) (fun _ => True) (o.sem (σ := σ) env) := by
  cases o with
  | pub p => exact (utters_publish fun ht => .inl (pub_documented (h ht))).seq fun _ => .pure trivial
  | input prompt pwd => exact (utters_input prompt pwd).seq fun _ => .pure trivial
  | parentHeader => exact (Utters.read _).seq fun _ => .pure trivial
  | history q => exact (Utters.readR (Q := fun _ => True) fun _ _ _ => trivial).seq fun _ => .pure trivial
  | comm o =>
    show Utters (KnownOn T) _ (commOp env o)
    unfold commOp
    refine Utters.seq (Q := fun _ => True) ?_ fun _ => utters_onComms _ _
    unfold commGuid
    split
    · exact .lift (fun _ => rfl) fun _ _ _ => trivial
    · exact .pure trivial
  | commSend k a md d bufs =>
    have hr : Utters (σ := σ) (KnownOn T) (fun r => T r.1 → Documented r.1 r.2) (K.readR fun w => w.comm.outgoing a k d) := .readR fun w r hr => by
      intro ht
      rw [comm_type hr] at ht
      exact comm_documented hr (h ht)
    refine hr.bind fun r hr => ?_
    exact Utters.seq (Q := fun _ => True) (utters_publish fun ht => .inl (hr ht)) fun _ => .pure trivial

theorem utters_exec {Ω : Type} {ok : Ω → Prop} {Q : α → Prop} {sem : Ω → K (World σ) Val} (hs : ∀ o, ok o → Utters (KnownOn T) (fun _ => True) (sem o))
    {p : Prog σ Ω α} (h : Obeys ok Q p) : Utters (KnownOn T) Q (p.exec sem) := by
  induction p with
  | ret a => exact .pure h
  | throw e => exact .throw e
  | ub w => exact .ofRes fun _ hb => by cases hb
  | hang => exact .ofRes fun _ hb => by cases hb
  | get k ih => exact (Utters.read _).seq fun s => ih s (h s)
  | set s k ih => exact (Utters.modify fun _ => rfl).seq fun _ => ih h
  | call o k ih => exact (hs o h.1).attempt.seq fun r => ih r (h.2 r)

theorem utters_user {Q : α → Prop} {p : Prog σ Op α} (h : Obeys (OpOn T) Q p) : Utters (KnownOn T) Q (p.exec (Op.sem env)) :=
  utters_exec (fun _ => utters_op) h

theorem utters_dop (hI : ConformsOn T I) {o : DOp} (h : DOpOn T o) : Utters (KnownOn T) (fun _ => True) (o.sem env I) := by
  cases o with
  | base o => exact utters_op h
  | toShell j =>
    refine Utters.seq (Q := fun _ => True) ?_ fun _ => .pure trivial
    refine Utters.ofRes'.seq fun _ => Utters.seq (Q := fun _ => True) ?_ fun _ => Utters.ofRes'
    exact Utters.ofRes'.seq fun _ => (utters_user (hI.internal _)).seq fun _ => Utters.ofRes'

theorem known_mark {e : Ev} (h : bodyOf e = none) : KnownOn T e := .inl h

theorem utters_call {Ω : Type} {Q : α → Prop} {sem : Ω → K (World σ) Val} {p : Prog σ Ω α} (h : Utters (KnownOn T) Q (p.exec sem)) (k : Call) :
    Utters (KnownOn T) Q (userCall sem k p) := by
  refine (Utters.emit (known_mark rfl)).seq fun _ => h.attempt.bind fun r hr => ?_
  cases r with
  | ok a => exact .pure (hr a rfl)
  | error e => exact (Utters.emit (known_mark rfl)).seq fun _ => .throw e

theorem utters_handler (hI : ConformsOn T I) (h : Option Nat) (m : XMessage) : Utters (KnownOn T) (fun _ => True) (runHandler env I h m) := by
  cases h with
  | none => exact .pure trivial
  | some n => exact utters_call (utters_user (hI.handler n m)) _

theorem utters_commOpen (hI : ConformsOn T I) (m : XMessage) : Utters (KnownOn T) (fun _ => True) (commOpen env I m) := by
  refine (utters_onComms _ _).seq fun r => Utters.seq (Q := fun _ => True) ?_ fun res => (utters_onComms _ _).seq fun _ => ?_
  · refine Utters.mono (Utters.attempt (Q := fun _ => True) ?_) fun _ _ => trivial
    cases r.2 with
    | none => exact .throw _
    | some cb => exact utters_call (utters_user (hI.target _ _ _)) _
  · cases res with
    | ok _ => exact .pure trivial
    | error e => exact .throw e

theorem fine_set {j j' v : Json} {k : String} (h : j.set (lit k) v = .ok j') (k' : String) (Q : Json → Prop) (hk : lit k ≠ lit k') (hh : Has j k' Q) :
    Has j' k' Q := by
  obtain ⟨x, h1, h2⟩ := hh
  exact ⟨x, by rw [Json.find?_set h, if_neg hk]; exact h1, h2⟩

theorem failed_set {j j' v : Json} {k : String} (h : j.set (lit k) v = .ok j') (hk : k = "execution_count" ∨ k = "protocol_version") (hf : Failed j) :
    Failed j' := by
  obtain ⟨h1, h2, h3, h4⟩ := hf
  rcases hk with rfl | rfl <;>
    exact ⟨fine_set h _ _ (by decide) h1, fine_set h _ _ (by decide) h2, fine_set h _ _ (by decide) h3, fine_set h _ _ (by decide) h4⟩

theorem utters_execute (hI : ConformsOn T I) (code : Str) (silent store : Bool) (exprs : Json) (allow : Bool) :
    Utters (KnownOn T) (fun c => T (lit "execute_reply") → Documented (lit "execute_reply") c) (interpExecute env I code silent store exprs allow) := by
  refine Utters.seq (Q := fun _ => True) ?_ fun _ => (Utters.read _).seq fun n =>
    (utters_call (utters_user (hI.execute n code silent store exprs allow)) _).bind fun r hr => (Utters.read _).seq fun n' => .ofRes fun j hj ht => ?_
  · unfold announce
    split
    · refine Utters.seq (Q := fun _ => True) (.lift (fun w => ?_) fun _ _ _ => trivial) fun _ => (Utters.read _).seq fun n =>
        utters_publish fun _ => .inl (pub_documented (p := .execInput code n) trivial)
      cases intAdd w.count 1 <;> rfl
    · exact .pure trivial
  · refine documented_of (i := 11) rfl (.inl ⟨⟨.int n', ?_, n', rfl⟩, ?_⟩)
    · rw [Json.find?_set hj, if_pos rfl]
    · rcases hr ht with hr | hr
      · exact .inl (fine_set hj _ _ (by decide) hr)
      · exact .inr (failed_set hj (.inl rfl) hr)

theorem utters_abort (q : Multipart) : Utters (KnownOn T) (fun _ => True) (abortRequest (σ := σ) env q) := by
  refine Utters.seq (Q := fun _ => True) (.mono (Utters.attempt (Q := fun _ => True) .ofRes') fun _ _ => trivial) fun r => ?_
  cases r with
  | error e =>
    show Utters (KnownOn T) _ (if e.isStd then Pure.pure () else K.throw e)
    split
    · exact .pure trivial
    · exact .throw e
  | ok m =>
    refine Utters.ofRes'.seq fun _ => Utters.ofRes'.seq fun t => utters_replyTo fun _ => .inr ?_
    exact .aborted t

theorem utters_abortLoop (n : Nat) : Utters (KnownOn T) (fun _ => True) (abortLoop (σ := σ) env n) := by
  induction n with
  | zero => exact .pure trivial
  | succ n ih =>
    refine Utters.seq (Q := fun _ => True) (.lift (fun w => ?_) fun _ _ _ => trivial) fun r => ?_
    · cases w.shellQ <;> rfl
    · cases r with
      | none => exact .pure trivial
      | some q => exact (utters_abort q).seq fun _ => ih

theorem histReply_good (rows : List (List Str)) : Good (lit "history_reply") (histReply rows) := by
  have e : histReply rows = .obj [(lit "history", .arr (rows.map fun r => .arr (r.map .str))), (lit "status", .str (lit "ok"))] := by
    simp (decide := true) [histReply, entriesJson, Json.put, Json.insertKV]
  rw [e]
  cases rows with
  | cons row rows => exact .inr (.history row rows)
  | nil =>
    refine .inl (documented_of (i := 14) rfl (.inl ⟨⟨.str (lit "ok"), by decide +kernel, rfl⟩, ?_⟩))
    exact ⟨.arr [], by decide +kernel, [], rfl, by simp⟩

theorem good_tail {h : Hist} {n : Int} {raw output : Bool} {j : Json} (e : getTail h n raw output = .ok j) : Good (lit "history_reply") j := by
  simp only [getTail] at e
  obtain ⟨_, _, e⟩ := Res.bind_eq_ok.1 e
  cases e
  exact histReply_good _

theorem good_range {h : Hist} {s a b : Int} {raw output : Bool} {j : Json} (e : getRange h s a b raw output = .ok j) : Good (lit "history_reply") j := by
  simp only [getRange] at e
  split at e
  · cases e
    have : ((Json.put .null (lit "status") (.str (lit "error"))).put (lit "ename")
        (.str (lit "history_request_error"))).put (lit "ename")
        (.str (lit "get_range: start is too high given stop or current history")) =
        .obj [(lit "ename", .str (lit "get_range: start is too high given stop or current history")), (lit "status", .str (lit "error"))] := by
      simp (decide := true) [Json.put, Json.insertKV]
    rw [this]
    exact .inr (.range _)
  · obtain ⟨_, _, e⟩ := Res.bind_eq_ok.1 e
    obtain ⟨_, _, e⟩ := Res.bind_eq_ok.1 e
    split at e
    · obtain ⟨_, _, e⟩ := Res.bind_eq_ok.1 e
      cases e
      exact histReply_good _
    · obtain ⟨_, _, e⟩ := Res.bind_eq_ok.1 e
      obtain ⟨_, _, e⟩ := Res.bind_eq_ok.1 e
      cases e
      exact histReply_good _

theorem good_search {R : RegexLib} {h : Hist} {p : Str} {raw output : Bool} {n : Int} {u : Bool} {j : Json}
    (e : Xeus.search R h p raw output n u = .ok j) : Good (lit "history_reply") j := by
  simp only [Xeus.search] at e
  obtain ⟨_, _, e⟩ := Res.bind_eq_ok.1 e
  obtain ⟨_, _, e⟩ := Res.bind_eq_ok.1 e
  cases e
  exact histReply_good _

theorem good_history {R : RegexLib} {h : Hist} {c j : Json} (e : historyRequest (inMemory R) h c = .ok j) : Good (lit "history_reply") j := by
  simp only [historyRequest, inMemory] at e
  obtain ⟨acc, _, e⟩ := Res.bind_eq_ok.1 e
  obtain ⟨h1, e1, e⟩ := Res.bind_eq_ok.1 e
  obtain ⟨h2, e2, e⟩ := Res.bind_eq_ok.1 e
  have g1 : Good (lit "history_reply") h1 := by
    split at e1
    · obtain ⟨_, _, e1⟩ := Res.bind_eq_ok.1 e1
      obtain ⟨_, _, e1⟩ := Res.bind_eq_ok.1 e1
      obtain ⟨_, _, e1⟩ := Res.bind_eq_ok.1 e1
      exact good_tail e1
    · cases e1; exact .inr .access
  have g2 : Good (lit "history_reply") h2 := by
    split at e2
    · obtain ⟨_, _, e2⟩ := Res.bind_eq_ok.1 e2
      obtain ⟨_, _, e2⟩ := Res.bind_eq_ok.1 e2
      obtain ⟨_, _, e2⟩ := Res.bind_eq_ok.1 e2
      obtain ⟨_, _, e2⟩ := Res.bind_eq_ok.1 e2
      obtain ⟨_, _, e2⟩ := Res.bind_eq_ok.1 e2
      exact good_search e2
    · cases e2; exact g1
  split at e
  · obtain ⟨_, _, e⟩ := Res.bind_eq_ok.1 e
    obtain ⟨_, _, e⟩ := Res.bind_eq_ok.1 e
    obtain ⟨_, _, e⟩ := Res.bind_eq_ok.1 e
    obtain ⟨_, _, e⟩ := Res.bind_eq_ok.1 e
    obtain ⟨_, _, e⟩ := Res.bind_eq_ok.1 e
    exact good_range e
  · cases e; exact g2

theorem mem_insertKV {k : Str} {v : Json} {l : List (Str × Json)} {x : Str × Json} (h : x ∈ Json.insertKV k v l) : x = (k, v) ∨ x ∈ l := by
  induction l with
  | nil => simpa [Json.insertKV] using h
  | cons y l ih =>
    simp only [Json.insertKV] at h
    split at h
    · rcases List.mem_cons.1 h with h | h
      · exact .inl h
      · exact .inr (List.mem_cons_of_mem _ h)
    · split at h
      · rcases List.mem_cons.1 h with h | h
        · exact .inl h
        · exact .inr h
      · rcases List.mem_cons.1 h with h | h
        · exact .inr (by rw [h]; simp)
        · exact (ih h).imp id (List.mem_cons_of_mem _)

theorem commsJson_dict (wanted : Str) (l : List (Str × Str)) (acc : Json) (h : DictOf (fun v => Has v "target_name" Text) acc) :
    DictOf (fun v => Has v "target_name" Text) (commsJson wanted l acc) := by
  induction l generalizing acc with
  | nil => exact h
  | cons x l ih =>
    refine ih _ ?_
    split
    · obtain ⟨kvs, rfl, hk⟩ := h
      refine ⟨_, rfl, fun y hy => ?_⟩
      rcases mem_insertKV hy with rfl | hy
      · exact has_put_self (j := .null) (v := .str x.2) (Q := Text) ⟨_, rfl⟩
      · exact hk y hy
    · exact h

theorem utters_handle [Stock env] (hI : ConformsOn T I) (r : Req) (m : XMessage) (c : Chan) : Utters (KnownOn T) (fun _ => True) (handle env I r m c) := by
  have md : Utters (KnownOn T) (fun _ => True) (getMetadata (σ := σ) env) :=
    Utters.seq (Q := fun _ => True) (.lift (fun _ => rfl) fun _ _ _ => trivial) fun _ => .pure trivial
  cases r with
  | execute =>
    refine .catchStd ?_ fun _ => .pure trivial
    refine Utters.ofRes'.seq fun _ => Utters.ofRes'.seq fun silent => Utters.ofRes'.seq fun _ => Utters.ofRes'.seq fun _ =>
      Utters.ofRes'.seq fun _ => Utters.ofRes'.seq fun _ => Utters.ofRes'.seq fun _ => md.seq fun _ => (utters_execute hI _ _ _ _ _).bind fun j hj =>
      Utters.ofRes'.seq fun _ => (utters_reply fun ht => .inl (hj ht)).seq fun _ => Utters.seq (Q := fun _ => True) ?_ fun _ => ?_
    · unfold storeK
      split
      · exact .modify fun _ => rfl
      · exact .pure trivial
    · unfold abortK
      split
      · exact (Utters.read _).seq fun _ => utters_abortLoop _
      · exact .pure trivial
  | complete => exact Utters.ofRes'.seq fun _ => Utters.ofRes'.seq fun _ => (utters_call (utters_user (hI.complete _ _)) _).bind fun j hj =>
      utters_reply fun ht => .inl (hj ht)
  | inspect => exact Utters.ofRes'.seq fun _ => Utters.ofRes'.seq fun _ => Utters.ofRes'.seq fun _ =>
      (utters_call (utters_user (hI.inspect _ _ _)) _).bind fun j hj => utters_reply fun ht => .inl (hj ht)
  | history =>
    obtain ⟨R, _, hm⟩ := Stock.memory (env := env)
    exact (Utters.readR (Q := Good (lit "history_reply")) fun _ _ h => good_history (by rw [← hm]; exact h)).bind fun j hj => utters_reply fun _ => hj
  | isComplete => exact Utters.ofRes'.seq fun _ => (utters_call (utters_user (hI.isComplete _)) _).bind fun j hj => utters_reply fun ht => .inl (hj ht)
  | commInfo =>
    refine Utters.ofRes'.seq fun wanted => (Utters.readR (Q := fun _ => True) fun _ _ _ => trivial).seq fun l => utters_reply fun _ => .inl ?_
    refine documented_of (i := 17) rfl (.inl ⟨has_put_self rfl, has_put_ne (by decide) (has_put_self ?_)⟩)
    exact commsJson_dict _ _ _ ⟨[], rfl, by simp⟩
  | commOpen => exact utters_commOpen hI m
  | commClose => exact (Utters.readR (Q := fun _ => True) fun _ _ _ => trivial).seq fun _ => (utters_handler hI _ m).seq fun _ => .modify fun _ => rfl
  | commMsg => exact (Utters.readR (Q := fun _ => True) fun _ _ _ => trivial).seq fun _ => utters_handler hI _ m
  | kernelInfo =>
    refine (utters_call (utters_user hI.kernelInfo) _).bind fun j hj => (Utters.ofRes (Q := fun c => T (lit "kernel_info_reply") → Documented (lit "kernel_info_reply") c) fun j' hs ht => ?_).bind
      fun j' hj' => utters_reply fun ht => .inl (hj' ht)
    refine documented_of (i := 16) rfl ?_
    rcases hj ht with ⟨h1, h2, h3, h4, h5⟩ | hf
    · exact .inl ⟨fine_set hs _ _ (by decide) h1, ⟨_, by rw [Json.find?_set hs, if_pos rfl], _, rfl⟩, fine_set hs _ _ (by decide) h2,
        fine_set hs _ _ (by decide) h3, fine_set hs _ _ (by decide) h4, fine_set hs _ _ (by decide) h5⟩
    · exact .inr (.inl (failed_set hs (.inr rfl) hf))
  | shutdown => exact Utters.ofRes'.seq fun b => (utters_call (utters_user hI.shutdown) _).seq fun _ => (Utters.emit (known_mark rfl)).seq fun _ =>
      (utters_publish fun _ => .inr (.shutdown b)).seq fun _ => utters_reply fun _ => .inr (.shutdownReply b)
  | interrupt => exact (utters_publish fun _ => .inr .interrupt).seq fun _ => utters_reply fun _ => .inr .interruptReply
  | debug =>
    show Utters (KnownOn T) _ (debugRequest env I m c)
    unfold debugRequest
    cases hd : I.debug with
    | none => exact .pure trivial
    | some d => exact (utters_call (utters_exec (fun _ => utters_dop hI) (hI.debug d hd _ _)) _).seq fun j => md.seq fun _ => utters_reply fun _ => .inr (.debug j)

theorem status_good (s : String) (h : s = "busy" ∨ s = "idle" ∨ s = "starting") :
    Good (lit "status") (Json.put .null (lit "execution_state") (.str (lit s))) := by
  refine .inl (documented_of (i := 0) rfl (has_put_self ?_))
  rcases h with rfl | rfl | rfl
  · exact .inl rfl
  · exact .inr (.inl rfl)
  · exact .inr (.inr rfl)

theorem utters_dispatch [Stock env] (hI : ConformsOn T I) (q : Multipart) (c : Chan) : Utters (KnownOn T) (fun _ => True) (dispatch env I q c) := by
  refine Utters.seq (Q := fun _ => True) (.mono (Utters.attempt (Q := fun _ => True) .ofRes') fun _ _ => trivial) fun r => ?_
  cases r with
  | error e =>
    show Utters (KnownOn T) _ (if e.isStd then Pure.pure () else K.throw e)
    split
    · exact .pure trivial
    · exact .throw e
  | ok m =>
    refine Utters.ofRes'.seq fun _ => Utters.seq (Q := fun _ => True) ?_ fun _ => (utters_publish fun _ => status_good "busy" (by simp)).seq fun _ =>
      Utters.ofRes'.seq fun t => Utters.seq (Q := fun _ => True) ?_ fun _ => utters_publish fun _ => status_good "idle" (by simp)
    · exact (Utters.modify fun _ => rfl).seq fun _ => .modify fun _ => rfl
    · unfold handleType
      cases getHandler t with
      | none => exact .pure trivial
      | some r => exact .catchStd (utters_handle hI r m c) fun _ => .pure trivial

theorem utters_session [Stock env] (hI : ConformsOn T I) (xs : List (Multipart × Chan)) : Utters (KnownOn T) (fun _ => True) (session env I xs) := by
  induction xs with
  | nil => exact .pure trivial
  | cons x r ih => exact (utters_dispatch hI x.1 x.2).seq fun _ => ih

theorem utters_life [Stock env] (hI : ConformsOn T I) {conf : Prog σ DOp Unit} (hc : Obeys (DOpOn T) (fun _ => True) conf) (xs : List (Multipart × Chan)) :
    Utters (KnownOn T) (fun _ => True) (life env I conf xs) := by
  refine (utters_exec (fun _ => utters_dop hI) hc).seq fun _ => Utters.seq (Q := fun _ => True) ?_ fun _ => utters_session hI xs
  refine (utters_header _).bind fun h hh => Utters.ofRes'.seq fun _ => .emit (.inr ⟨lit "status", _, ⟨_, rfl, hh, rfl⟩, fun _ => status_good "starting" (by simp)⟩)

end

end Xeus.Protocol
