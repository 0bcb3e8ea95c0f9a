import Verif.Kernel.PropsComm

/-!
# Property C76: what user code publishes

Only the property theorems and the `example`s that instantiate their hypotheses.
-/

namespace Xeus

open Spec

variable {σ : Type}

namespace Spec

/-- Message type and content of what a publishing function sends, as documented. -/
def Published : PubOp → String × List (String × Json)
  | .stream name text => ("stream", [("name", .str name), ("text", .str text)])
  | .display data metadata transient =>
    ("display_data", [("data", data), ("metadata", metadata), ("transient", transient)])
  | .updateDisplay data metadata transient =>
    ("update_display_data", [("data", data), ("metadata", metadata), ("transient", transient)])
  | .execInput code count => ("execute_input", [("code", .str code), ("execution_count", .int count)])
  | .execResult count data metadata =>
    ("execute_result", [("data", data), ("execution_count", .int count), ("metadata", metadata)])
  | .execError name value traceback =>
    ("error", [("ename", .str name), ("evalue", .str value), ("traceback", .arr (traceback.map .str))])
  | .clearOutput wait => ("clear_output", [("wait", .bool wait)])

/-- The content as an object. -/
def pubContent (p : PubOp) : Json := .obj ((Published p).2.map fun m => (lit m.1, m.2))

/-- The calls of publishing functions, one after the other, whatever comes of them. -/
def publishing : List PubOp → Prog σ Op Unit
  | [] => .ret ()
  | p :: ps => .call (.pub p) fun _ => publishing ps

/-- The events are the publications of these calls, attributed to this request, in this order. -/
inductive PublishedAll (env : Env) (parent : Json) : List PubOp → List Ev → Prop
  | nil : PublishedAll env parent [] []
  | sent {p ps e es} : IsPub env .shell (lit (Published p).1) parent (.obj []) (pubContent p) [] e →
      PublishedAll env parent ps es → PublishedAll env parent (p :: ps) (e :: es)
  | failed {p ps es} : ¬ Printable env.eh (pubContent p) → PublishedAll env parent ps es →
      PublishedAll env parent (p :: ps) es

end Spec

theorem pubOp_type (p : PubOp) : p.type = lit (Published p).1 := by cases p <;> rfl

theorem pubOp_content (p : PubOp) : p.content = pubContent p := by
  cases p <;> simp [PubOp.content, pubContent, Published, Json.put, Json.insertKV,
    show lit "text" ≠ lit "name" by decide, show strLt (lit "text") (lit "name") = false by decide,
    show lit "metadata" ≠ lit "data" by decide, show strLt (lit "metadata") (lit "data") = false by decide,
    show lit "transient" ≠ lit "data" by decide, show strLt (lit "transient") (lit "data") = false by decide,
    show lit "transient" ≠ lit "metadata" by decide, show strLt (lit "transient") (lit "metadata") = false by decide,
    show lit "execution_count" ≠ lit "code" by decide, show strLt (lit "execution_count") (lit "code") = false by decide,
    show lit "data" ≠ lit "execution_count" by decide, show strLt (lit "data") (lit "execution_count") = true by decide,
    show lit "metadata" ≠ lit "execution_count" by decide,
    show strLt (lit "metadata") (lit "execution_count") = false by decide,
    show lit "evalue" ≠ lit "ename" by decide, show strLt (lit "evalue") (lit "ename") = false by decide,
    show lit "traceback" ≠ lit "ename" by decide, show strLt (lit "traceback") (lit "ename") = false by decide,
    show lit "traceback" ≠ lit "evalue" by decide, show strLt (lit "traceback") (lit "evalue") = false by decide]

/-- C76: every publishing function sends exactly one message, of the documented type and content, without buffers, with
empty metadata, attributed to the current shell request; if the content cannot be printed it throws and sends nothing. -/
theorem C76_publish (env : Env) (hs : Sane env) (p : PubOp) (w : World σ) (hp : Parsed (w.parent .shell).header) :
    (∃ e w', IsPub env .shell (lit (Published p).1) (w.parent .shell).header (.obj []) (pubContent p) [] e ∧
      ((Op.pub p).sem env).run w = (.ok .unit, w') ∧ Only w [e] w') ∨
    (¬ Printable env.eh (pubContent p) ∧
      ∃ w', ((Op.pub p).sem env).run w = (.exc .typeError, w') ∧ Only w [] w') := by
  have hrun : ((Op.pub p).sem env).run w =
      K.andThen ((publishMessage env (lit (Published p).1) (.obj []) (pubContent p) [] .shell).run w)
        fun _ w' => (.ok .unit, w') := by
    simp only [Op.sem, publishOp, K.run_bind, K.run_pure, pubOp_type, pubOp_content]
  have hty : Utf8 (lit (Published p).1) := by cases p <;> (simp only [Published]; exact utf8_lit (by decide))
  by_cases hpr : Printable env.eh (pubContent p)
  · obtain ⟨wire, _, h⟩ := publishMessage_ok hs [] hp hty (emptyObj_printable _) hpr
    rw [h, K.andThen_ok] at hrun
    exact .inl ⟨_, _, ⟨_, wire, rfl, rfl, hdrAt_wf env w _, rfl, rfl, rfl, rfl⟩, hrun,
      ⟨rfl, rfl, rfl, rfl, rfl, rfl, rfl, rfl, rfl⟩⟩
  · rcases publishMessage_cases hs.log (lit (Published p).1) (.obj []) (pubContent p) [] .shell w with ⟨wire, _, h⟩ | h
    · rw [h, K.andThen_ok] at hrun
      exact .inl ⟨_, _, ⟨_, wire, rfl, rfl, hdrAt_wf env w _, rfl, rfl, rfl, rfl⟩, hrun,
        ⟨rfl, rfl, rfl, rfl, rfl, rfl, rfl, rfl, rfl⟩⟩
    · rw [h, K.andThen_exc] at hrun
      exact .inr ⟨hpr, _, hrun, ⟨rfl, rfl, rfl, rfl, rfl, rfl, rfl, rfl, by simp [tick]⟩⟩

/-- C76: what can be printed is sent. -/
theorem C76_sent (env : Env) (hs : Sane env) (p : PubOp) (w : World σ) (hp : Parsed (w.parent .shell).header)
    (hpr : Printable env.eh (pubContent p)) :
    ∃ e w', IsPub env .shell (lit (Published p).1) (w.parent .shell).header (.obj []) (pubContent p) [] e ∧
      ((Op.pub p).sem env).run w = (.ok .unit, w') ∧ Only w [e] w' := by
  rcases C76_publish env hs p w hp with h | ⟨h, _⟩
  · exact h
  · exact absurd hpr h

/-- C76: a sequence of calls sends its messages in that order, each once, those that cannot be printed left out. -/
theorem C76_sequence (env : Env) (hs : Sane env) (ps : List PubOp) : ∀ (w : World σ), Parsed (w.parent .shell).header →
    ∃ es w', ((publishing ps).exec (Op.sem env)).run w = (.ok (), w') ∧ Only w es w' ∧
      PublishedAll env (w.parent .shell).header ps es := by
  induction ps with
  | nil =>
    intro w _
    exact ⟨[], w, by simp only [publishing, Prog.exec, K.run_pure], ⟨rfl, rfl, rfl, rfl, rfl, rfl, rfl, rfl, by simp⟩, .nil⟩
  | cons p ps ih =>
    intro w hp
    have step : ∀ {r es₁ w₁ es₂}, ((Op.pub p).sem env).run w = (r, w₁) → Only w es₁ w₁ → (∃ a, K.captured (r, w₁) = (.ok a, w₁)) →
        (∀ w₂, ((publishing ps).exec (Op.sem env)).run w₁ = (.ok (), w₂) → Only w₁ es₂ w₂ →
          ((publishing (p :: ps)).exec (Op.sem env)).run w = (.ok (), w₂) ∧ Only w (es₁ ++ es₂) w₂) := by
      rintro r es₁ w₁ es₂ h ho ⟨a, ha⟩ w₂ h₂ ho₂
      refine ⟨?_, ?_⟩
      · simp only [publishing, Prog.exec, K.run_bind, K.run_attempt, h, ha, K.andThen_ok]
        exact h₂
      · exact ⟨ho₂.parent.trans ho.parent, ho₂.st.trans ho.st, ho₂.count.trans ho.count, ho₂.input.trans ho.input,
          ho₂.hist.trans ho.hist, ho₂.comm.trans ho.comm, ho₂.shellQ.trans ho.shellQ, ho₂.stdinQ.trans ho.stdinQ,
          by rw [ho₂.out, ho.out, List.append_assoc]⟩
    rcases C76_publish env hs p w hp with ⟨e, w₁, he, hrun, ho⟩ | ⟨hn, w₁, hrun, ho⟩
    · obtain ⟨es, w₂, h₂, ho₂, hall⟩ := ih w₁ (by rw [ho.parent]; exact hp)
      obtain ⟨h3, h4⟩ := step hrun ho ⟨_, rfl⟩ w₂ h₂ ho₂
      exact ⟨_, w₂, h3, h4, .sent he (by rw [← ho.parent]; exact hall)⟩
    · obtain ⟨es, w₂, h₂, ho₂, hall⟩ := ih w₁ (by rw [ho.parent]; exact hp)
      obtain ⟨h3, h4⟩ := step hrun ho ⟨_, rfl⟩ w₂ h₂ ho₂
      exact ⟨_, w₂, h3, h4, .failed hn (by rw [← ho.parent]; exact hall)⟩

/-- A stream and an error, after one another. -/
example : ∃ es w', ((publishing [.stream (lit "stdout") (lit "hi"), .execError (lit "E") (lit "v") [lit "t"]]).exec
    (Op.sem sampleEnv)).run sampleWorld = (.ok (), w') ∧ Only sampleWorld es w' ∧ es.length = 2 := by
  obtain ⟨es, w', h1, h2, h3⟩ := C76_sequence sampleEnv sampleEnv_sane
    [.stream (lit "stdout") (lit "hi"), .execError (lit "E") (lit "v") [lit "t"]] sampleWorld (sampleWorld_parents .shell)
  refine ⟨es, w', h1, h2, ?_⟩
  have hp : ∀ p ∈ [PubOp.stream (lit "stdout") (lit "hi"), .execError (lit "E") (lit "v") [lit "t"]],
      Printable sampleEnv.eh (pubContent p) := by
    intro p hp
    simp only [List.mem_cons, List.not_mem_nil, or_false] at hp
    rcases hp with rfl | rfl
    · exact ⟨by decide, fun _ => (jsonUtf8_iff _).2 (by decide +kernel)⟩
    · exact ⟨by decide, fun _ => (jsonUtf8_iff _).2 (by decide +kernel)⟩
  cases h3 with
  | sent _ h =>
    cases h with
    | sent _ h => cases h; rfl
    | failed h => exact absurd (hp _ (by simp)) h
  | failed h => exact absurd (hp _ (by simp)) h

example : pubContent (.execError (lit "E") (lit "v") [lit "t"]) =
    .obj [(lit "ename", .str (lit "E")), (lit "evalue", .str (lit "v")), (lit "traceback", .arr [.str (lit "t")])] := rfl

end Xeus
