import Verif.Debugger.Pages
import Verif.Debugger.Sample

/-!
# The debugger: properties C63 and C64
-/

namespace Xeus.Dbg

open Xeus Spec K

variable {σ : Type}

/-! ## C63: dumpCell and source -/

/-- **C63, storing.** dumpCell answers with the path made from the code; a file that does not exist yet is created with
exactly the code, a file that can be read is left as it is, and no other file is touched. -/
theorem C63_dump {d : Debugger σ} (hd : Extends d) {header m seq : Json} {code path : Str} (hm : DumpCell m seq code)
    {s : State σ} (hs : s.started = true) (hh : (d.J.dump .strict header).isSome) (ha : s.acks ≠ [])
    (hp : d.cellFile code s.st = .ok path) :
    ∃ answer s', (processRequest d header m).run s = (.ok answer, s') ∧
      Answers answer seq (lit "dumpCell") (lit "sourcePath") (.str path) ∧
      (∀ p, p ≠ path → s'.files p = s.files p) ∧
      (s.files path = none → d.writable path = true → s'.files path = some code) ∧
      (∀ c, s.files path = some c → d.readable path = true → s'.files path = some c) := by
  obtain ⟨hb, hb'⟩ := Option.isSome_iff_exists.1 hh
  obtain ⟨ack, as, has⟩ := List.exists_cons_of_ne_nil ha
  refine ⟨_, _, run_dumpCell hd hm hs hb' has hp, answers_response _ _ _ _, fun p hne => ?_, fun hn hw => ?_, fun c hc hr => ?_⟩
  · unfold dump
    split
    · rfl
    · split
      · show (if p = path then some code else s.files p) = s.files p
        rw [if_neg hne]
      · rfl
  · unfold dump
    have h1 : ((afterHeader hb as s).files path).isSome = false := by
      have : (afterHeader hb as s).files path = s.files path := rfl
      rw [this, hn]; rfl
    rw [h1]
    simp [hw]
  · exact (eff_dump (d := d) ⟨true, true, true⟩ path code (afterHeader hb as s)).files path c hr hc

/-- **C63, reading.** A source request returns exactly the content of the file, and a failure if it cannot be read. -/
theorem C63_source {d : Debugger σ} (hd : Extends d) {header m seq : Json} {path : Str} (hm : Source m seq path)
    {s : State σ} (hs : s.started = true) (hh : (d.J.dump .strict header).isSome) (ha : s.acks ≠ []) :
    ∃ answer s', (processRequest d header m).run s = (.ok answer, s') ∧ s'.files = s.files ∧
      (∀ c, s.files path = some c → d.readable path = true →
        Answers answer seq (lit "source") (lit "content") (.str c)) ∧
      (s.files path = none ∨ d.readable path = false → At answer [lit "success"] (.bool false)) := by
  obtain ⟨hb, hb'⟩ := Option.isSome_iff_exists.1 hh
  obtain ⟨ack, as, has⟩ := List.exists_cons_of_ne_nil ha
  refine ⟨_, _, run_source hd hm hs hb' has, rfl, fun c hc hr => ?_, fun h => ?_⟩
  · rw [hc, hr]
    exact answers_response _ _ _ _
  · have e : (if d.readable path then s.files path else none) = none := by
      rcases h with h | h
      · rw [h]; simp
      · rw [h]; rfl
    have h : lit "body" ≠ lit "success" ∧ lit "command" ≠ lit "success" ∧ lit "message" ≠ lit "success" ∧
      lit "request_seq" ≠ lit "success" := by decide +kernel
    rw [e]
    exact .member (by simp [sourceReply, Json.find?, Json.lookup, h]) .here

/-- **C63, no file is overwritten.** Whatever happens, a file that exists and can be read keeps its content. -/
theorem C63_kept {d : Debugger σ} {s₀ s : State σ} {steps : List Step} (h : Hist d s₀ steps s) {path content : Str}
    (hr : d.readable path = true) (hf : s₀.files path = some content) : s.files path = some content :=
  grow_hist h path content hr hf

/-- **C63, there and back.** If the file of a cell does not exist before it is dumped, or holds its code already, then
after the dump and whatever happens later, a source request for the path that was answered returns exactly the code. -/
theorem C63_roundtrip {d : Debugger σ} (hd : Extends d) {header m seq : Json} {code path : Str} (hm : DumpCell m seq code)
    {s s₁ s₂ : State σ} {answer : Json} {steps : List Step} (hs : s.started = true)
    (hp : d.cellFile code s.st = .ok path) (hr : d.readable path = true) (hw : d.writable path = true)
    (hf : s.files path = none ∨ s.files path = some code)
    (hrun : (processRequest d header m).run s = (.ok answer, s₁)) (hist : Hist d s₁ steps s₂)
    {header' m' seq' : Json} {path' : Str} (hans : At answer [lit "body", lit "sourcePath"] (.str path'))
    (hm' : Source m' seq' path') (hs₂ : s₂.started = true) (hh' : (d.J.dump .strict header').isSome) (ha' : s₂.acks ≠ []) :
    ∃ answer' s₃, (processRequest d header' m').run s₂ = (.ok answer', s₃) ∧
      Answers answer' seq' (lit "source") (lit "content") (.str code) := by
  have hstarted := hrun
  rw [run_ordinary hm.command (by decide +kernel) (by decide +kernel),
    no_plain (by decide +kernel) fun f hf => (hd.requests _ _ _ hf).1 (by simp [builtinCommands])] at hstarted
  simp only [dispatch, whenStarted, run_bind, run_read, andThen_ok, hs, if_true, sendHeader, run_ofRes, Codec.writeZmq] at hstarted
  cases hdump : d.J.dump .strict header with
  | none => simp [hdump] at hstarted
  | some hb =>
    cases hacks : s.acks with
    | nil => simp [hdump, emit, recvAck, hacks] at hstarted
    | cons ack as =>
      clear hstarted
      obtain ⟨answer₀, s₁', hrun', hans', _, hnew, hold⟩ := C63_dump hd hm hs (by simp [hdump] : (d.J.dump .strict header).isSome)
        (by simp [hacks]) hp
      rw [hrun] at hrun'
      simp only [Prod.mk.injEq, Res.ok.injEq] at hrun'
      obtain ⟨rfl, rfl⟩ := hrun'
      have := at_unique hans hans'.body
      simp only [Json.str.injEq] at this
      subst this
      have h₁ : s₁.files path' = some code := by
        rcases hf with hf | hf
        · exact hnew hf hw
        · exact hold _ hf hr
      have h₂ := C63_kept hist hr h₁
      obtain ⟨answer', s₃, h₃, _, h₄, _⟩ := C63_source hd hm' hs₂ hh' ha'
      exact ⟨answer', s₃, h₃, h₄ code h₂ hr⟩

section Examples
open Sample

def dumpReq (code : String) : Json := request "dumpCell" (.obj [(lit "code", .str (lit code))])

def sourceReq (path : String) : Json :=
  request "source" (.obj [(lit "source", .obj [(lit "path", .str (lit path))])])

theorem dumpReq_ok (code : String) : DumpCell (dumpReq code) (.int 12) (lit code) := by
  have h : lit "arguments" ≠ lit "command" ∧ lit "arguments" ≠ lit "seq" ∧ lit "command" ≠ lit "seq" := by decide +kernel
  refine ⟨.member ?_ .here, .member (v := .obj [(lit "code", .str (lit code))]) ?_ (.member ?_ .here), .member ?_ .here⟩ <;>
    simp [dumpReq, request, Json.find?, Json.lookup, h]

theorem sourceReq_ok (path : String) : Source (sourceReq path) (.int 12) (lit path) := by
  have h : lit "arguments" ≠ lit "command" ∧ lit "arguments" ≠ lit "seq" ∧ lit "command" ≠ lit "seq" := by decide +kernel
  refine ⟨.member ?_ .here, .member (v := .obj [(lit "source", .obj [(lit "path", .str (lit path))])]) ?_
    (.member (v := .obj [(lit "path", .str (lit path))]) ?_ (.member ?_ .here)), .member ?_ .here⟩ <;>
    simp [sourceReq, request, Json.find?, Json.lookup, h]

def dumpState : State Nat :=
  { initial 1 (fun p => if p = lit "/tmp/q.py" then some (lit "old") else none) [] [[], [], []] with started := true }

/-- A new cell. -/
example : ∃ answer s', (processRequest debugger header (dumpReq "a = 1")).run dumpState = (.ok answer, s') ∧
    s'.files (lit "/tmp/a.py") = some (lit "a = 1") ∧ s'.files (lit "/tmp/q.py") = some (lit "old") := by
  obtain ⟨answer, s', h, _, h₁, h₂, _⟩ := C63_dump debugger_extends (dumpReq_ok "a = 1") (s := dumpState) rfl
    (header := header) (by decide +kernel) (by decide +kernel) (path := lit "/tmp/a.py") (by decide +kernel)
  exact ⟨answer, s', h, h₂ (by decide +kernel) (by decide +kernel), by rw [h₁ _ (by decide +kernel)]; decide +kernel⟩

example : ∃ answer s', (processRequest debugger header (sourceReq "/tmp/q.py")).run dumpState = (.ok answer, s') ∧
    Answers answer (.int 12) (lit "source") (lit "content") (.str (lit "old")) := by
  obtain ⟨answer, s', h, _, h₁, _⟩ := C63_source debugger_extends (sourceReq_ok "/tmp/q.py") (s := dumpState) rfl
    (header := header) (by decide +kernel) (by decide +kernel)
  exact ⟨answer, s', h, h₁ _ (by decide +kernel) (by decide +kernel)⟩

/-- Another cell with the same path does not change the file. -/
example : ∃ steps s, Hist debugger dumpState steps s ∧ steps.length = 1 ∧ s.files (lit "/tmp/q.py") = some (lit "old") := by
  rcases hr : (runCall debugger (.request header (dumpReq "q = 1"))).attempt.run dumpState with ⟨r, s'⟩
  have hok : ((runCall debugger (.request header (dumpReq "q = 1"))).attempt.run dumpState).1 =
      .ok (.ok (response (.int 12) (.str (lit "dumpCell")) (.obj [(lit "sourcePath", .str (lit "/tmp/q.py"))]))) := by
    obtain ⟨answer, s', h, _⟩ := C63_dump debugger_extends (dumpReq_ok "q = 1") (s := dumpState) rfl
      (header := header) (by decide +kernel) (by decide +kernel) (path := lit "/tmp/q.py") (by decide +kernel)
    have h2 := run_dumpCell debugger_extends (dumpReq_ok "q = 1") (s := dumpState) (header := header) rfl
      (hb := printJson header) (by decide +kernel) (ack := []) (as := [[], []]) rfl (path := lit "/tmp/q.py") (by decide +kernel)
    rw [run_attempt]
    simp only [runCall, h2, captured_ok]
  rw [hr] at hok
  subst hok
  have hh : Hist debugger dumpState _ s' := .snoc .nil hr
  exact ⟨_, s', hh, rfl, C63_kept hh (by decide +kernel) (by decide +kernel)⟩

/-- There and back. -/
example : ∃ answer s₁ answer' s₃, (processRequest debugger header (dumpReq "a = 1")).run dumpState = (.ok answer, s₁) ∧
    (processRequest debugger header (sourceReq "/tmp/a.py")).run s₁ = (.ok answer', s₃) ∧
      Answers answer' (.int 12) (lit "source") (lit "content") (.str (lit "a = 1")) := by
  have h := run_dumpCell debugger_extends (dumpReq_ok "a = 1") (s := dumpState) (header := header) rfl
      (hb := printJson header) (by decide +kernel) (ack := []) (as := [[], []]) rfl (path := lit "/tmp/a.py") (by decide +kernel)
  obtain ⟨answer', s₃, h₁, h₂⟩ := C63_roundtrip debugger_extends (dumpReq_ok "a = 1") (s := dumpState) rfl
    (path := lit "/tmp/a.py") (by decide +kernel) (by decide +kernel) (by decide +kernel) (.inl (by decide +kernel)) h .nil
    (answers_response _ _ _ _).body (sourceReq_ok "/tmp/a.py") (header' := header) (by decide +kernel) (by decide +kernel)
    (by decide +kernel)
  exact ⟨_, _, answer', s₃, h, h₁, h₂⟩

/-- **C63 does not hold when two cells have the same path.** The second cell is reported to be at the path of the first
one, but a source request for it returns the code of the first. -/
theorem C63_collision_witness :
    ∃ s₁ s₂ a, (processRequest debugger header (dumpReq "a = 1")).run dumpState = (.ok a, s₁) ∧
      (processRequest debugger header (dumpReq "abc")).run s₁ = (.ok a, s₂) ∧
      At a [lit "body", lit "sourcePath"] (.str (lit "/tmp/a.py")) ∧ s₂.files (lit "/tmp/a.py") = some (lit "a = 1") := by
  have h := run_dumpCell debugger_extends (dumpReq_ok "a = 1") (s := dumpState) (header := header) rfl
      (hb := printJson header) (by decide +kernel) (ack := []) (as := [[], []]) rfl (path := lit "/tmp/a.py") (by decide +kernel)
  have h₂ := run_dumpCell debugger_extends (dumpReq_ok "abc")
    (s := dump debugger (lit "/tmp/a.py") (lit "a = 1") (afterHeader (printJson header) [[], []] dumpState)) (header := header)
    (by decide +kernel) (hb := printJson header) (by decide +kernel) (ack := []) (as := [[]]) (by decide +kernel)
    (path := lit "/tmp/a.py") (by decide +kernel)
  exact ⟨_, _, _, h, h₂, (answers_response _ _ _ _).body, by decide +kernel⟩

/-- **C63: an existing file is overwritten if it can be written but not read.** -/
theorem C63_unreadable_witness :
    ∃ s', (processRequest debugger header (dumpReq "x = 1")).run
        { dumpState with files := fun p => if p = lit "/tmp/x.py" then some (lit "secret") else none } =
      (.ok (response (.int 12) (.str (lit "dumpCell")) (.obj [(lit "sourcePath", .str (lit "/tmp/x.py"))])), s') ∧
      s'.files (lit "/tmp/x.py") = some (lit "x = 1") := by
  have h := run_dumpCell debugger_extends (dumpReq_ok "x = 1")
    (s := { dumpState with files := fun p => if p = lit "/tmp/x.py" then some (lit "secret") else none }) (header := header) rfl
    (hb := printJson header) (by decide +kernel) (ack := []) (as := [[], []]) rfl (path := lit "/tmp/x.py") (by decide +kernel)
  exact ⟨_, h, by decide +kernel⟩

end Examples

/-! ## C64: paging and cutting -/

theorem getInt_arg {args : Json} {k : Str} {n : Int} (h : Arg args k n) (hn : InInt n) : intOr0 (args.find? k) = .ok n := by
  rcases h with h | ⟨h, rfl⟩
  · rw [h]; simp only [intOr0, Json.getInt, wrap32_id hn]
  · rw [h]; rfl

theorem page_args {args reply : Json} {start count : Int} (hs : Arg args (lit "start") start)
    (hc : Arg args (lit "count") count) (his : InInt start) (hic : InInt count) :
    page args reply = if start = 0 ∧ count = 0 then .ok reply else pageReply start count reply := by
  unfold page
  by_cases h : (args.find? (lit "start")).isNone && (args.find? (lit "count")).isNone
  · rw [if_pos h]
    simp only [Bool.and_eq_true, Option.isNone_iff_eq_none] at h
    have h1 : start = 0 := by
      rcases hs with hs | hs
      · rw [h.1] at hs; cases hs
      · exact hs.2
    have h2 : count = 0 := by
      rcases hc with hc | hc
      · rw [h.2] at hc; cases hc
      · exact hc.2
    rw [if_pos ⟨h1, h2⟩]
  · rw [if_neg h]
    simp only [getInt_arg hs his, getInt_arg hc hic, Res.bind_ok]
    split <;> rfl

/-- **C64, paging, every case.** The request goes to the adapter as it is.  The answer comes back with its list of
variables replaced by the part from `start` up to `start + count` (or the end, if `count` is 0), or with null if that part is
empty; if the part is not inside the list, the request ends with `out_of_range`; without `start` and `count` (or if both
are 0) the answer is not changed.  The sum of the two must not overflow. -/
theorem C64_variables {d : Debugger σ} (hd : Extends d) {header m args reply : Json}
    (hc : At m [lit "command"] (.str (lit "variables"))) (hargs : At m [lit "arguments"] args)
    {start count e : Int} (hstart : Arg args (lit "start") start) (hcount : Arg args (lit "count") count)
    (his : InInt start) (hic : InInt count) (hov : InInt (start + count))
    {hb ack content raw : Str} {as rs : List Str} {s : State σ} (hs : s.started = true)
    (hdump : d.J.dump .strict header = some hb) (ha : s.acks = ack :: as) (hm : d.J.dump .strict m = some content)
    (hr : s.replies = raw :: rs) (hp : d.J.parse raw = some reply) {vs : List Json}
    (hvs : At reply [lit "body", lit "variables"] (.arr vs)) (hlen : InInt vs.length)
    (he : e = if count = 0 then (vs.length : Int) else start + count) :
    ∃ res, (processRequest d header m).run s =
        (res, { s with acks := as, replies := rs, out := s.out ++ [.header hb, .request (dapFrame content)] }) ∧
      ((start = 0 ∧ count = 0) → res = .ok reply) ∧
      (¬ (start = 0 ∧ count = 0) → start < e → 0 ≤ start → e ≤ vs.length →
        ∃ answer, res = .ok answer ∧ Replaced reply answer (lit "body") (lit "variables")
          (.arr ((vs.drop start.toNat).take (e - start).toNat))) ∧
      (¬ (start = 0 ∧ count = 0) → e ≤ start →
        ∃ answer, res = .ok answer ∧ Replaced reply answer (lit "body") (lit "variables") .null) ∧
      (start < e → ¬ (0 ≤ start ∧ e ≤ vs.length) → res = .exc .outOfRange) := by
  refine ⟨_, run_variables hd hc hargs hs hdump ha hm hr hp, ?_, ?_, ?_, ?_⟩
  · intro h
    rw [page_args hstart hcount his hic, if_pos h]
  all_goals
    obtain ⟨b, hb', _, hok, hexc⟩ := pageReply_found (start := start) (count := count) hvs hov
    rw [pageList_eq hlen hov he] at hok hexc
  · intro h hlt h0 hle
    rw [page_args hstart hcount his hic, if_neg h]
    rw [if_neg (by omega), if_pos ⟨h0, hle⟩] at hok
    exact ⟨_, hok _ rfl, replaced_put hb'⟩
  · intro h hle
    rw [page_args hstart hcount his hic, if_neg h]
    rw [if_pos hle] at hok
    exact ⟨_, hok _ rfl, replaced_put hb'⟩
  · intro hlt hno
    have h : ¬ (start = 0 ∧ count = 0) := by
      rintro ⟨rfl, rfl⟩
      simp only [if_true] at he
      omega
    rw [page_args hstart hcount his hic, if_neg h]
    rw [if_neg (by omega), if_neg hno] at hexc
    exact hexc _ rfl

/-- **C64, paging, the intended use.** For `start` and `count` within the list, the answer is the adapter's with exactly
the `count` variables from `start` on. -/
theorem C64_slice {d : Debugger σ} (hd : Extends d) {header m args reply : Json}
    (hc : At m [lit "command"] (.str (lit "variables"))) (hargs : At m [lit "arguments"] args)
    {start count : Nat} (hstart : Arg args (lit "start") start) (hcount : Arg args (lit "count") count)
    {hb ack content raw : Str} {as rs : List Str} {s : State σ} (hs : s.started = true)
    (hdump : d.J.dump .strict header = some hb) (ha : s.acks = ack :: as) (hm : d.J.dump .strict m = some content)
    (hr : s.replies = raw :: rs) (hp : d.J.parse raw = some reply) {vs : List Json}
    (hvs : At reply [lit "body", lit "variables"] (.arr vs)) (hlen : InInt vs.length) (hpos : 0 < count)
    (hle : start + count ≤ vs.length) :
    ∃ answer s', (processRequest d header m).run s = (.ok answer, s') ∧
      Replaced reply answer (lit "body") (lit "variables") (.arr ((vs.drop start).take count)) := by
  have hi (n : Nat) (h : n ≤ vs.length) : InInt (n : Int) := by
    unfold InInt intMin intMax at *; omega
  have hov : InInt ((start : Int) + count) := by
    have := hi (start + count) hle
    rwa [Int.natCast_add] at this
  obtain ⟨res, h, _, h₁, _⟩ := C64_variables hd hc hargs hstart hcount (hi start (by omega)) (hi count (by omega)) hov hs
    hdump ha hm hr hp hvs hlen rfl
  have hne : ¬ ((count : Int) = 0) := by omega
  rw [if_neg hne] at h₁
  obtain ⟨answer, h₂, h₃⟩ := h₁ (by omega) (by omega) (by omega) (by omega)
  have e : ((start : Int) + count - start).toNat = count := by omega
  rw [e, Int.toNat_natCast] at h₃
  exact ⟨answer, _, h₂ ▸ h, h₃⟩

/-- **C64, overflow.** If the sum overflows the behaviour is undefined. -/
theorem C64_overflow {d : Debugger σ} (hd : Extends d) {header m args reply : Json}
    (hc : At m [lit "command"] (.str (lit "variables"))) (hargs : At m [lit "arguments"] args)
    {start count : Int} (hstart : Arg args (lit "start") start) (hcount : Arg args (lit "count") count)
    (his : InInt start) (hic : InInt count) (hov : ¬ InInt (start + count))
    {hb ack content raw : Str} {as rs : List Str} {s : State σ} (hs : s.started = true)
    (hdump : d.J.dump .strict header = some hb) (ha : s.acks = ack :: as) (hm : d.J.dump .strict m = some content)
    (hr : s.replies = raw :: rs) (hp : d.J.parse raw = some reply) :
    ∃ w, ((processRequest d header m).run s).1 = .ub w := by
  have hne : count ≠ 0 := by
    rintro rfl
    rw [Int.add_zero] at hov
    exact hov his
  rw [run_variables hd hc hargs hs hdump ha hm hr hp, page_args hstart hcount his hic,
    if_neg (by omega)]
  unfold pageReply
  rw [if_pos ⟨hne, hov⟩]
  exact ⟨_, rfl⟩

/-- **C64, stack traces with a frame of the kernel.** The answer is the adapter's without the first frame whose source is
`<string>`, if all the frames before it have a source with a path. -/
theorem C64_stack_cut {d : Debugger σ} (hd : Extends d) (hJ : Xeus.Spec.LawfulCodec d.J) {header m reply : Json}
    (hc : At m [lit "command"] (.str (lit "stackTrace")))
    {hb ack content raw : Str} {as rs : List Str} {s : State σ} (hs : s.started = true)
    (hdump : d.J.dump .strict header = some hb) (ha : s.acks = ack :: as) (hm : d.J.dump .strict m = some content)
    (hr : s.replies = raw :: rs) (hp : d.J.parse raw = some reply) {pre post : List Json} {f : Json}
    (hfs : At reply [lit "body", lit "stackFrames"] (.arr (pre ++ f :: post)))
    (hpre : ∀ x ∈ pre, ∃ p, At x [lit "source", lit "path"] p ∧ p ≠ .str (lit "<string>"))
    (hf : At f [lit "source", lit "path"] (.str (lit "<string>"))) :
    ∃ answer, (processRequest d header m).run s =
        (.ok answer, { s with acks := as, replies := rs, out := s.out ++ [.header hb, .request (dapFrame content)] }) ∧
      Replaced reply answer (lit "body") (lit "stackFrames") (.arr (pre ++ post)) := by
  have hcan := (hJ.parse_wf _ _ hp).1
  obtain ⟨b, hb', hf', _⟩ := cutReply_found hfs (fs' := pre ++ post) (by
    obtain ⟨b, hb', h'⟩ := at_cons.1 hfs
    obtain ⟨v, hv, h'⟩ := at_cons.1 h'
    rw [at_nil] at h'
    subst h'
    exact cutFrames_first (canon_elem (canon_find (canon_find hcan hb') hv)) hpre hf)
  have hcut := cutFrames_first (canon_elem (canon_find (canon_find hcan hb') hf')) hpre hf
  obtain ⟨b', hb'', _, hrep⟩ := cutReply_found hfs hcut
  refine ⟨_, ?_, replaced_put hb''⟩
  rw [run_stackTrace hd hc hs hdump ha hm hr hp, hrep]
  rfl

/-- **C64, other stack traces.** If no frame is from `<string>` and all have a source with a path, the answer is exactly the
adapter's. -/
theorem C64_stack_same {d : Debugger σ} (hd : Extends d) (hJ : Xeus.Spec.LawfulCodec d.J) {header m reply : Json}
    (hc : At m [lit "command"] (.str (lit "stackTrace")))
    {hb ack content raw : Str} {as rs : List Str} {s : State σ} (hs : s.started = true)
    (hdump : d.J.dump .strict header = some hb) (ha : s.acks = ack :: as) (hm : d.J.dump .strict m = some content)
    (hr : s.replies = raw :: rs) (hp : d.J.parse raw = some reply) {fs : List Json}
    (hfs : At reply [lit "body", lit "stackFrames"] (.arr fs))
    (hall : ∀ x ∈ fs, ∃ p, At x [lit "source", lit "path"] p ∧ p ≠ .str (lit "<string>")) :
    (processRequest d header m).run s =
      (.ok reply, { s with acks := as, replies := rs, out := s.out ++ [.header hb, .request (dapFrame content)] }) := by
  have hcan := (hJ.parse_wf _ _ hp).1
  obtain ⟨b, hb', h'⟩ := at_cons.1 hfs
  obtain ⟨v, hv, h'⟩ := at_cons.1 h'
  rw [at_nil] at h'
  subst h'
  have hbc := canon_find hcan hb'
  obtain ⟨b', hb'', hv', hrep⟩ := cutReply_found hfs (cutFrames_none (canon_elem (canon_find hbc hv)) hall)
  rw [hb'] at hb''
  cases hb''
  rw [run_stackTrace hd hc hs hdump ha hm hr hp, hrep, put_same hbc hv, put_same hcan hb']
  rfl

/-- An answer of the adapter that reports a failure: it has no body. -/
def Bare (reply : Json) : Prop := reply.isObj = true ∧ reply.find? (lit "body") = none

theorem bare_page {reply : Json} (h : Bare reply) (k : Str) {f : Json → Res (Unit × Json)} :
    atKey (lit "body") (atKey k f) reply = (f .null).bind fun r => .ok ((), reply.put (lit "body") (.obj [(k, r.2)])) := by
  obtain ⟨h1, h2⟩ := h
  match reply, h1 with
  | .obj kvs, _ =>
    have h2 : Json.lookup (lit "body") kvs = none := h2
    simp only [atKey, h2, Option.getD_none]
    cases f .null <;> rfl

theorem pageLoop_null (i : Int) : ∀ n, 0 < n → pageLoop .null i n = .exc .typeError
  | n + 1, _ => rfl

/-- **C64, failures.** If the adapter answers a paged request with a failure, which has no body, the frontend does not get that answer:
the request ends with `type_error`, or the answer is given a body with null variables. -/
theorem C64_failed_variables {d : Debugger σ} (hd : Extends d) {header m args reply : Json}
    (hc : At m [lit "command"] (.str (lit "variables"))) (hargs : At m [lit "arguments"] args)
    {start count e : Int} (hstart : Arg args (lit "start") start) (hcount : Arg args (lit "count") count)
    (his : InInt start) (hic : InInt count) (hov : InInt (start + count))
    {hb ack content raw : Str} {as rs : List Str} {s : State σ} (hs : s.started = true)
    (hdump : d.J.dump .strict header = some hb) (ha : s.acks = ack :: as) (hm : d.J.dump .strict m = some content)
    (hr : s.replies = raw :: rs) (hp : d.J.parse raw = some reply) (hbare : Bare reply)
    (he : e = if count = 0 then 0 else start + count) :
    ∃ res, (processRequest d header m).run s =
        (res, { s with acks := as, replies := rs, out := s.out ++ [.header hb, .request (dapFrame content)] }) ∧
      ((start = 0 ∧ count = 0) → res = .ok reply) ∧
      (start < e → res = .exc .typeError) ∧
      (¬ (start = 0 ∧ count = 0) → e ≤ start → ∃ answer, res = .ok answer ∧ At answer [lit "body", lit "variables"] .null ∧
        ∀ k, k ≠ lit "body" → answer.find? k = reply.find? k) := by
  have hl : pageList start count .null = if start < e then .exc .typeError else .ok ((), .null) := by
    have he' : pageEnd start count .null = .ok e := by
      unfold pageEnd
      rw [he]
      split
      · rfl
      · rfl
    unfold pageList
    rw [he']
    by_cases h : start < e
    · simp only [Res.bind_ok, pageLoop_null start _ (show 0 < (e - start).toNat by omega), if_pos h]
      rfl
    · simp only [Res.bind_ok, show (e - start).toNat = 0 by omega, if_neg h]
      rfl
  have hno : ¬ (count ≠ 0 ∧ ¬ InInt (start + count)) := fun hc => hc.2 hov
  have hpage : ¬ (start = 0 ∧ count = 0) → page args reply = (if start < e then .exc .typeError
      else .ok (reply.put (lit "body") (.obj [(lit "variables", .null)]))) := by
    intro h
    rw [page_args hstart hcount his hic, if_neg h]
    unfold pageReply
    rw [if_neg hno, bare_page hbare, hl]
    split <;> rfl
  refine ⟨_, run_variables hd hc hargs hs hdump ha hm hr hp, fun h => ?_, fun h => ?_, fun h hle => ?_⟩
  · rw [page_args hstart hcount his hic, if_pos h]
  · rw [hpage (fun h' => by rw [he, if_pos h'.2, h'.1] at h; exact absurd h (by decide)), if_pos h]
  · refine ⟨_, by rw [hpage h, if_neg (by omega)], .member (v := .obj [(lit "variables", .null)]) (by rw [Json.find?_put]; simp)
      (.member (by simp [Json.find?, Json.lookup]) .here), fun k hk => by rw [Json.find?_put]; simp [Ne.symm hk]⟩

/-- **C64, failures.** A failure answered to a stackTrace request gets a body with null frames. -/
theorem C64_failed_stack {d : Debugger σ} (hd : Extends d) {header m reply : Json}
    (hc : At m [lit "command"] (.str (lit "stackTrace")))
    {hb ack content raw : Str} {as rs : List Str} {s : State σ} (hs : s.started = true)
    (hdump : d.J.dump .strict header = some hb) (ha : s.acks = ack :: as) (hm : d.J.dump .strict m = some content)
    (hr : s.replies = raw :: rs) (hp : d.J.parse raw = some reply) (hbare : Bare reply) :
    ∃ answer, (processRequest d header m).run s =
        (.ok answer, { s with acks := as, replies := rs, out := s.out ++ [.header hb, .request (dapFrame content)] }) ∧
      At answer [lit "body", lit "stackFrames"] .null ∧ ∀ k, k ≠ lit "body" → answer.find? k = reply.find? k := by
  have : cutReply reply = .ok (reply.put (lit "body") (.obj [(lit "stackFrames", .null)])) := by
    unfold cutReply
    rw [bare_page hbare]
    rfl
  refine ⟨_, by rw [run_stackTrace hd hc hs hdump ha hm hr hp, this]; rfl, .member (v := .obj [(lit "stackFrames", .null)])
    (by rw [Json.find?_put]; simp) (.member (by simp [Json.find?, Json.lookup]) .here), fun k hk => by rw [Json.find?_put]; simp [Ne.symm hk]⟩

section Examples
open Sample

def varReq (start count : Int) : Json :=
  request "variables" (.obj [(lit "count", .int count), (lit "start", .int start)])

def varAnswer (l : List Int) : Json :=
  .obj [(lit "body", .obj [(lit "variables", .arr (l.map .int))]), (lit "success", .bool true)]

def pageState (reply : Json) : State Nat := { initial 1 noFiles [printJson reply] [[]] with started := true }

theorem varReq_args (start count : Int) :
    At (varReq start count) [lit "command"] (.str (lit "variables")) ∧
      At (varReq start count) [lit "arguments"] (.obj [(lit "count", .int count), (lit "start", .int start)]) ∧
      Arg (.obj [(lit "count", .int count), (lit "start", .int start)]) (lit "start") start ∧
      Arg (.obj [(lit "count", .int count), (lit "start", .int start)]) (lit "count") count := by
  have h : lit "arguments" ≠ lit "command" := by decide +kernel
  have h' : lit "count" ≠ lit "start" := by decide +kernel
  refine ⟨.member ?_ .here, .member ?_ .here, .inl ?_, .inl ?_⟩ <;> simp [varReq, request, Json.find?, Json.lookup, h, h']

/-- The two variables from number 1 on. -/
example : ∃ answer s', (processRequest debugger header (varReq 1 2)).run (pageState (varAnswer [10, 11, 12, 13])) =
    (.ok answer, s') ∧ Replaced (varAnswer [10, 11, 12, 13]) answer (lit "body") (lit "variables") (.arr [.int 11, .int 12]) :=
  C64_slice debugger_extends (varReq_args 1 2).1 (varReq_args 1 2).2.1 (start := 1) (count := 2) (varReq_args 1 2).2.2.1
    (varReq_args 1 2).2.2.2 (s := pageState (varAnswer [10, 11, 12, 13])) rfl (hb := printJson header) (by decide +kernel)
    (ack := []) (as := []) rfl (content := printJson (varReq 1 2)) (by decide +kernel) rfl
    (by decide +kernel) (vs := [.int 10, .int 11, .int 12, .int 13]) (.member rfl (.member rfl .here)) (by decide) (by decide)
    (by decide)

/-- Beyond the end: `out_of_range`; and an empty part is null instead of an empty list. -/
example : ((processRequest debugger header (varReq 3 2)).run (pageState (varAnswer [10, 11, 12, 13]))).1 = .exc .outOfRange := by
  obtain ⟨res, h, _, _, _, h₁⟩ := C64_variables debugger_extends (header := header) (varReq_args 3 2).1 (varReq_args 3 2).2.1
    (varReq_args 3 2).2.2.1 (varReq_args 3 2).2.2.2 (by decide) (by decide) (by decide)
    (s := pageState (varAnswer [10, 11, 12, 13])) rfl (hb := printJson header) (by decide +kernel)
    (ack := []) (as := []) rfl (content := printJson (varReq 3 2)) (by decide +kernel) rfl
    (reply := varAnswer [10, 11, 12, 13]) (by decide +kernel) (vs := [.int 10, .int 11, .int 12, .int 13])
    (.member rfl (.member rfl .here)) (by decide) rfl
  rw [h]
  exact h₁ (by decide) (by decide)

example : ∃ w, ((processRequest debugger header (varReq 2147483647 1)).run (pageState (varAnswer [10]))).1 = .ub w :=
  C64_overflow debugger_extends (varReq_args _ _).1 (varReq_args _ _).2.1 (varReq_args _ _).2.2.1 (varReq_args _ _).2.2.2
    (by decide) (by decide) (by decide) rfl (hb := printJson header) (by decide +kernel) (ack := []) (as := []) rfl
    (content := printJson (varReq 2147483647 1)) (by decide +kernel) rfl (reply := varAnswer [10]) (by decide +kernel)

/-- The adapter fails. -/
def failure : Json := .obj [(lit "message", .str (lit "no such frame")), (lit "success", .bool false)]

example : ((processRequest debugger header (varReq 0 2)).run (pageState failure)).1 = .exc .typeError := by
  obtain ⟨res, h, _, h₁, _⟩ := C64_failed_variables debugger_extends (header := header) (varReq_args 0 2).1 (varReq_args 0 2).2.1
    (varReq_args 0 2).2.2.1 (varReq_args 0 2).2.2.2 (by decide) (by decide) (by decide)
    (s := pageState failure) rfl (hb := printJson header) (by decide +kernel)
    (ack := []) (as := []) rfl (content := printJson (varReq 0 2)) (by decide +kernel) rfl
    (reply := failure) (by decide +kernel) ⟨by decide, by decide +kernel⟩ rfl
  rw [h]
  exact h₁ (by decide)

example : ∃ answer s', (processRequest debugger header (request "stackTrace" .null)).run (pageState failure) = (.ok answer, s') ∧
    At answer [lit "body", lit "stackFrames"] .null := by
  obtain ⟨a, h, h', _⟩ := C64_failed_stack debugger_extends (header := header) (m := request "stackTrace" .null) (.member rfl .here)
    (s := pageState failure) rfl (hb := printJson header) (by decide +kernel)
    (ack := []) (as := []) rfl (content := printJson (request "stackTrace" .null)) (by decide +kernel) rfl
    (reply := failure) (by decide +kernel) ⟨by decide, by decide +kernel⟩
  exact ⟨a, _, h, h'⟩

/-- **C64: an empty page is null.** -/
theorem C64_null_witness : ((processRequest debugger header (varReq 4 0)).run (pageState (varAnswer [10, 11, 12, 13]))).1 =
    .ok (.obj [(lit "body", .obj [(lit "variables", .null)]), (lit "success", .bool true)]) := by decide +kernel

/-- **C64: paging is done twice.** The request is forwarded with `start` and `count`, so an adapter that pages (here: the
last two of four variables) gives an answer to which the same bounds are applied again. -/
theorem C64_twice_witness :
    ((processRequest debugger header (varReq 2 2)).run (pageState (varAnswer [12, 13]))).1 = .exc .outOfRange ∧
      ((processRequest debugger header (varReq 2 2)).run (pageState (varAnswer [12, 13]))).2.out =
        [.header (printJson header), .request (dapFrame (printJson (varReq 2 2)))] := by decide +kernel

def frame (path : String) : Json := .obj [(lit "source", .obj [(lit "path", .str (lit path))])]

def stackAnswer (l : List Json) : Json := .obj [(lit "body", .obj [(lit "stackFrames", .arr l)])]

theorem frame_path (path : String) : At (frame path) [lit "source", lit "path"] (.str (lit path)) :=
  .member (v := .obj [(lit "path", .str (lit path))]) (by simp [frame, Json.find?, Json.lookup])
    (.member (by simp [Json.find?, Json.lookup]) .here)

/-- Only the first frame of the kernel's own code goes. -/
example : ∃ answer s', (processRequest debugger header (request "stackTrace" .null)).run
      (pageState (stackAnswer [frame "a.py", frame "<string>", frame "<string>"])) = (.ok answer, s') ∧
    Replaced (stackAnswer [frame "a.py", frame "<string>", frame "<string>"]) answer (lit "body") (lit "stackFrames")
      (.arr [frame "a.py", frame "<string>"]) := by
  obtain ⟨answer, h, h'⟩ := C64_stack_cut debugger_extends stdCodec_lawful (header := header) (m := request "stackTrace" .null)
    (.member (by decide +kernel) .here) (s := pageState (stackAnswer [frame "a.py", frame "<string>", frame "<string>"])) rfl
    (hb := printJson header) (by decide +kernel) (ack := []) (as := []) rfl (content := printJson (request "stackTrace" .null))
    (by decide +kernel) rfl (reply := stackAnswer [frame "a.py", frame "<string>", frame "<string>"]) (by decide +kernel)
    (pre := [frame "a.py"]) (f := frame "<string>") (post := [frame "<string>"]) (.member rfl (.member rfl .here))
    (fun x hx => by
      rw [List.mem_singleton.1 hx]
      exact ⟨_, frame_path "a.py", by decide +kernel⟩) (frame_path "<string>")
  exact ⟨answer, _, h, h'⟩

example : ∃ s', (processRequest debugger header (request "stackTrace" .null)).run
      (pageState (stackAnswer [frame "a.py", frame "b.py"])) = (.ok (stackAnswer [frame "a.py", frame "b.py"]), s') := by
  refine ⟨_, C64_stack_same debugger_extends stdCodec_lawful (header := header) (m := request "stackTrace" .null)
    (.member (by decide +kernel) .here) (s := pageState (stackAnswer [frame "a.py", frame "b.py"])) rfl
    (hb := printJson header) (by decide +kernel) (ack := []) (as := []) rfl (content := printJson (request "stackTrace" .null))
    (by decide +kernel) rfl (by decide +kernel) (fs := [frame "a.py", frame "b.py"]) (.member rfl (.member rfl .here)) ?_⟩
  intro x hx
  simp only [List.mem_cons, List.not_mem_nil, or_false] at hx
  rcases hx with rfl | rfl
  · exact ⟨_, frame_path _, by decide +kernel⟩
  · exact ⟨_, frame_path _, by decide +kernel⟩

/-- **C64: other changes to stack traces.** A frame without a source gets one; an answer without frames, such as that to
a request that failed, gets an empty body. -/
theorem C64_stack_witness :
    ((processRequest debugger header (request "stackTrace" .null)).run (pageState (stackAnswer [.obj []]))).1 =
      .ok (stackAnswer [.obj [(lit "source", .obj [(lit "path", .null)])]]) ∧
    ((processRequest debugger header (request "stackTrace" .null)).run (pageState (.obj [(lit "success", .bool false)]))).1 =
      .ok (.obj [(lit "body", .obj [(lit "stackFrames", .null)]), (lit "success", .bool false)]) := by decide +kernel

end Examples

end Xeus.Dbg
