import Verif.Kernel.Spec

/-!
# The kernels that come with the library: specifications

What the example kernel and the test kernel publish and answer.
-/

namespace Xeus.Spec

open Xeus

variable {σ : Type}

/-- The messages are publications of these types with these contents, in this order, with the given parent. -/
def Says (env : Env) (parent : Json) : List (String × Json) → List Ev → Prop
  | [], es => es = []
  | (t, j) :: r, es => ∃ e es', es = e :: es' ∧ IsPub env .shell (lit t) parent (.obj []) j [] e ∧ Says env parent r es'

/-- An object with these members and no others. -/
def Members (l : List (String × Json)) (j : Json) : Prop :=
  j.isObj = true ∧ ∀ k, j.find? k = (l.find? fun m => lit m.1 = k).map (·.2)

/-- An object with one member. -/
def one (k : String) (v : Json) : Json := .obj [(lit k, v)]

/-- A text. -/
def txt (s : String) : Json := .str (lit s)

/-- The whole course of a request that made the kernel call the interpreter with `k`: `busy`, the announcement `pre`, the call, the
publications `said`, exactly one reply of type `rt` whose content satisfies `P`, and `idle`; then the counter shows `n` and the
history has the additional `entries`. -/
structure Talks (env : Env) (m : XMessage) (c : Chan) (w : World σ) (pre : List Ev) (k : Call) (said : List (String × Json)) (rt : String)
    (P : Json → Prop) (n : Int) (entries : Hist) (x : Res Unit × World σ) : Prop where
  ok : x.1 = .ok ()
  out : ∃ b es md j rep i, IsStatus env c "busy" m.body.header b ∧ Says env (shellParent m c w) said es ∧ P j ∧
    IsReplyWith env c m.ids m.body.header (lit rt) md j rep ∧ IsStatus env c "idle" m.body.header i ∧
    x.2.out = w.out ++ ([b] ++ pre ++ [.call k] ++ es ++ [rep, i])
  count : x.2.count = n
  hist : x.2.hist = w.hist ++ entries
  comm : x.2.comm = w.comm
  input : x.2.input = w.input
  shellQ : x.2.shellQ = w.shellQ
  stdinQ : x.2.stdinQ = w.stdinQ

/-! ## The example kernel -/

/-- What it publishes whatever the code: a result, and an error. -/
def demoSays (n : Int) : List (String × Json) :=
  [("execute_result", .obj [(lit "data", one "text/plain" (txt "Hello World !!")), (lit "execution_count", .int n),
      (lit "metadata", .obj [])]),
   ("error", .obj [(lit "ename", txt "TypeError"), (lit "evalue", txt "123"), (lit "traceback", .arr [txt "!@#$", txt "*(*"])])]

/-- Its answers to requests for completion: three words if the code begins with `H`. -/
def DemoCompletes (code : Str) (pos : Int) : Json → Prop :=
  Members [("status", txt "ok"),
    ("matches", .arr (if code.head? = some 72 then [txt "Hello", txt "Hey", txt "Howdy"] else [])),
    ("cursor_start", .int (if code.head? = some 72 then 5 else pos)), ("cursor_end", .int pos)]

/-- Its answers to requests for inspection: it knows `print`. -/
def DemoInspects (code : Str) : Json → Prop :=
  Members (if code = lit "print" then
      [("found", .bool true), ("text/plain", txt "Print objects to the text stream file, [...]"), ("status", txt "ok")]
    else [("found", .bool false), ("status", txt "ok")])

/-- Its answer to requests for information. -/
def DemoInfo : Json → Prop := fun j => ∃ l,
  Members [("implementation", txt "my_kernel"), ("implementation_version", txt "0.1.0"), ("language_info", l),
    ("protocol_version", txt "5.3")] j ∧
  Members [("name", txt "python"), ("version", txt "3.7"), ("mimetype", txt "text/x-python"), ("file_extension", txt ".py")] l

/-! ## The test kernel -/

/-- What it publishes: it prints `hello, world` and `error`, and returns the code as result unless it is `?`. -/
def testSays (n : Int) (code : Str) : List (String × Json) :=
  (if code = lit "hello, world" then [("stream", .obj [(lit "name", txt "stdout"), (lit "text", .str code)])] else []) ++
  (if code = lit "error" then [("stream", .obj [(lit "name", txt "stderr"), (lit "text", .str code)])] else []) ++
  (if code = lit "?" then []
   else [("execute_result", .obj [(lit "data", one "text/plain" (.str code)), (lit "execution_count", .int n), (lit "metadata", .null)])])

/-- Its answer: `?` opens the pager. -/
def TestAnswers (n : Int) (code : Str) : Json → Prop := fun j => ∃ p,
  Members [("status", txt "ok"), ("payload", .arr p), ("user_expressions", .obj []), ("execution_count", .int n)] j ∧
  if code = lit "?" then ∃ x d html, p = [x] ∧ Members [("data", d), ("source", txt "page"), ("start", .int 0)] x ∧
    Members [("text/plain", txt "https://xeus.readthedocs.io"), ("text/html", .str html)] d
  else p = []

/-- It takes the code for the answer whether it is complete. -/
def TestIsComplete (code : Str) : Json → Prop :=
  Members (if code = lit "incomplete" then [("status", .str code), ("indent", txt "   ")] else [("status", .str code)])

/-- Its answer to requests for information. -/
def TestInfo : Json → Prop := fun j => ∃ l,
  Members [("implementation", txt "cpp_test"), ("implementation_version", txt "1.0.0"), ("banner", txt "test_kernel"),
    ("language_info", l), ("protocol_version", txt "5.3")] j ∧
  Members [("name", txt "cpp"), ("version", txt "14.0.0"), ("mimetype", txt "text/x-c++src"), ("file_extension", txt ".cpp")] l

/-- Its answers to requests for completion and inspection are always the same. -/
def TestCompletes : Json → Prop :=
  Members [("status", txt "ok"), ("matches", .arr [txt "a.test1", txt "a.test2"]), ("cursor_start", .int 2), ("cursor_end", .int 6)]

def TestInspects : Json → Prop :=
  Members [("status", txt "ok"), ("found", .bool true), ("data", one "text/plain" (txt "")), ("metadata", one "text/plain" (txt ""))]

end Xeus.Spec
