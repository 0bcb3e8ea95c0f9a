import Verif.Build.Model

/-!
# The kernels that come with the library: the model

Models the example kernel (example/src/custom_interpreter.cpp, example/src/main.cpp), the kernel used for testing
(test/test_interpreter.cpp, test/main.cpp, test/main_control.cpp, test/main_shell.cpp), the default of
`internal_request_impl` (src/xinterpreter.cpp:242-248) and `get_user_name` (src/xkernel.cpp:40-71, for Linux, Unix and macOS).

Neither interpreter has a state.  What they print to the console is left out.
-/

namespace Xeus.Kernels

open Xeus

/-- A call of a publishing function; what it throws is not caught. -/
def say {σ α : Type} (p : PubOp) (k : Prog σ Op α) : Prog σ Op α :=
  .call (.pub p) fun r => match r with
    | .ok _ => k
    | .error e => .throw e

/-- `nl::json result; result[k₁] = v₁; …`. -/
def filled (l : List (String × Json)) : Json := l.foldl (fun j kv => j.put (lit kv.1) kv.2) .null

/-- A text literal. -/
def text (s : String) : Json := .str (lit s)

/-- `xinterpreter::internal_request_impl` (src/xinterpreter.cpp:242-248). -/
def internalUnsupported : Json := filled [("status", text "error"), ("what", text "internal request not supported")]

/-! ## The example -/

/-- `custom_interpreter::execute_request_impl` (example/src/custom_interpreter.cpp:22-50). -/
def demoExecute (n : Int) : Prog Unit Op Json :=
  say (.execResult n (filled [("text/plain", text "Hello World !!")]) (.obj [])) <|
  say (.execError (lit "TypeError") (lit "123") [lit "!@#$", lit "*(*"]) <|
  .ret (filled [("status", text "ok")])

/-- `custom_interpreter::complete_request_impl` (example/src/custom_interpreter.cpp:57-80); `code[0]` is NUL if `code` is empty. -/
def demoComplete (code : Str) (pos : Int) : Json :=
  if code.headD 0 = 72 then
    filled [("status", text "ok"), ("matches", .arr [text "Hello", text "Hey", text "Howdy"]), ("cursor_start", .int 5),
      ("cursor_end", .int pos)]
  else
    filled [("status", text "ok"), ("matches", .arr []), ("cursor_start", .int pos), ("cursor_end", .int pos)]

/-- `custom_interpreter::inspect_request_impl` (example/src/custom_interpreter.cpp:82-100). -/
def demoInspect (code : Str) : Json :=
  if code = lit "print" then
    filled [("found", .bool true), ("text/plain", text "Print objects to the text stream file, [...]"), ("status", text "ok")]
  else filled [("found", .bool false), ("status", text "ok")]

/-- `custom_interpreter::kernel_info_request_impl` (example/src/custom_interpreter.cpp:119-129). -/
def demoInfo : Json :=
  filled [("implementation", text "my_kernel"), ("implementation_version", text "0.1.0"),
    ("language_info", filled [("name", text "python"), ("version", text "3.7"), ("mimetype", text "text/x-python"),
      ("file_extension", text ".py")])]

/-- `custom_interpreter`. -/
def demo : Interp Unit where
  execute n _ _ _ _ _ := demoExecute n
  complete code pos := .ret (demoComplete code pos)
  inspect code _ _ := .ret (demoInspect code)
  -- example/src/custom_interpreter.cpp:102-117
  isComplete _ := .ret (filled [("status", text "complete")])
  kernelInfo := .ret demoInfo
  -- example/src/custom_interpreter.cpp:131-133
  shutdown := .ret ()
  internal _ := .ret internalUnsupported
  target _ _ _ := .ret ()
  handler _ _ := .ret ()
  debug := none

/-- `custom_interpreter::configure_impl` (example/src/custom_interpreter.cpp:52-55). -/
def demoConf : Prog Unit DOp Unit := .ret ()

/-! ## The test kernel -/

/-- `html_content` (test/test_interpreter.cpp:51-52). -/
def pagerHtml : Str :=
  lit "<iframe class=\"xpyt-iframe-pager\" src=\"\n                https://xeus.readthedocs.io\"></iframe>"

/-- test/test_interpreter.cpp:54-64. -/
def pagerAnswer : Json :=
  filled [("status", text "ok"),
    ("payload", .arr [filled [("data", filled [("text/plain", text "https://xeus.readthedocs.io"), ("text/html", .str pagerHtml)]),
      ("source", text "page"), ("start", .int 0)]]),
    ("user_expressions", .obj [])]

/-- test/test_interpreter.cpp:49-77. -/
def testAnswer (n : Int) (code : Str) : Prog Unit Op Json :=
  if code = lit "?" then .ret pagerAnswer
  else
    say (.execResult n (filled [("text/plain", .str code)]) .null) <|
    .ret (filled [("status", text "ok"), ("payload", .arr []), ("user_expressions", .obj [])])

/-- test/test_interpreter.cpp:44-47. -/
def testErr (n : Int) (code : Str) : Prog Unit Op Json :=
  if code = lit "error" then say (.stream (lit "stderr") code) (testAnswer n code) else testAnswer n code

/-- `test_interpreter::execute_request_impl` (test/test_interpreter.cpp:30-78). -/
def testExecute (n : Int) (code : Str) : Prog Unit Op Json :=
  if code = lit "hello, world" then say (.stream (lit "stdout") code) (testErr n code) else testErr n code

/-- `test_interpreter::is_complete_request_impl` (test/test_interpreter.cpp:104-113). -/
def testIsComplete (code : Str) : Json :=
  let result := Json.put .null (lit "status") (.str code)
  if code = lit "incomplete" then result.put (lit "indent") (text "   ") else result

/-- `test_interpreter::kernel_info_request_impl` (test/test_interpreter.cpp:115-126). -/
def testInfo : Json :=
  filled [("implementation", text "cpp_test"), ("implementation_version", text "1.0.0"), ("banner", text "test_kernel"),
    ("language_info", filled [("name", text "cpp"), ("version", text "14.0.0"), ("mimetype", text "text/x-c++src"),
      ("file_extension", text ".cpp")])]

/-- `test_interpreter`. -/
def testing : Interp Unit where
  execute n code _ _ _ _ := testExecute n code
  -- test/test_interpreter.cpp:80-90
  complete _ _ := .ret (filled [("status", text "ok"), ("matches", .arr [text "a.test1", text "a.test2"]),
    ("cursor_start", .int 2), ("cursor_end", .int 6)])
  -- test/test_interpreter.cpp:92-102
  inspect _ _ _ := .ret (filled [("status", text "ok"), ("found", .bool true), ("data", filled [("text/plain", text "")]),
    ("metadata", filled [("text/plain", text "")])])
  isComplete code := .ret (testIsComplete code)
  kernelInfo := .ret testInfo
  -- test/test_interpreter.cpp:128-130
  shutdown := .ret ()
  internal _ := .ret internalUnsupported
  -- `handle_comm_opened` (test/test_interpreter.cpp:23-25) only prints
  target _ _ _ := .ret ()
  handler _ _ := .ret ()
  debug := none

/-- `test_interpreter::configure_impl` (test/test_interpreter.cpp:21-28); the callback has the number 0. -/
def testConf : Prog Unit DOp Unit :=
  .call (.base (.comm (.registerTarget (lit "test_target") (some 0)))) fun r => match r with
    | .ok _ => .ret ()
    | .error e => .throw e

/-! ## The programs -/

/-- What the programs learn from the platform, apart from what the library needs. -/
structure Host where
  /-- `pw_name` of the effective user, if there is an entry -/
  pwName : Option Str
  /-- `std::getenv("USER")` -/
  userVar : Option Str
  /-- the files that can be read and hold JSON -/
  read : Str → Option Json
  /-- what happens when the sockets are bound -/
  net : Setup.Worlds

/-- `get_user_name` (src/xkernel.cpp:40-71). -/
def getUserName (h : Host) : Str :=
  match h.pwName with
  | some n => n
  | none =>
    match h.userVar with
    | some n => n
    | none => lit "unspecified user"

/-- `file_name` (example/src/main.cpp:20); `argv` are the arguments with the name of the program, after which `argv` holds a null
pointer. -/
def fileName (argv : List Str) : Res Str :=
  if argv.length = 1 then .ok (lit "connection.json")
  else match argv[2]? with
    | some f => .ok f
    | none => .ub "std::string made from a null pointer, or an argument beyond the last"

/-- The constructor call of the programs, with the defaults of include/xeus/xkernel.hpp:48-56. -/
def givenFor (h : Host) (cfg : Setup.Config) (server : Setup.Worlds → Setup.Config → Res Build.Server) (I : Interp Unit)
    (conf : Prog Unit DOp Unit) : Build.Given Unit where
  config := some cfg
  user := getUserName h
  interp := I
  st := ()
  conf := conf
  fin := .ret ()
  logger := none
  server := server h.net
  debugger := Build.makeNullDebugger
  debuggerConfig := .obj []
  eh := .strict

/-- `main` up to the construction of the kernel (example/src/main.cpp:17-28, test/main.cpp:16-23, test/main_control.cpp:17-33,
test/main_shell.cpp:17-33). -/
def program (p : Build.Platform) (h : Host) (server : Setup.Worlds → Setup.Config → Res Build.Server) (I : Interp Unit)
    (conf : Prog Unit DOp Unit) (argv : List Str) : Res (Build.Kern Unit) := do
  let f ← fileName argv
  let cfg ← Setup.loadConfiguration h.read f
  Build.construct p (givenFor h cfg server I conf)

/-- example/src/main.cpp. -/
def demoMain (p : Build.Platform) (h : Host) : List Str → Res (Build.Kern Unit) :=
  program p h Build.makeXserver demo demoConf

/-- test/main.cpp. -/
def testMain (p : Build.Platform) (h : Host) : List Str → Res (Build.Kern Unit) :=
  program p h Build.makeXserver testing testConf

/-- test/main_control.cpp, test/main_shell.cpp. -/
def testMainSplit (p : Build.Platform) (h : Host) : List Str → Res (Build.Kern Unit) :=
  program p h Build.makeXserverSplit testing testConf

end Xeus.Kernels
