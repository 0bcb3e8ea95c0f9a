import Verif.History.Props
import Verif.Sys.Props
import Verif.Setup.Props
import Verif.Kernels.MainProps
import Verif.Clock.Lemmas

/-!
# C101: the unit tests of the library

test/test_xin_memory_history_manager.cpp and test/test_unit_kernel.cpp, as functions of what the library returns: which of
them pass in which surroundings.
-/

namespace Xeus.Tests

open Xeus Spec Kernels

/-! ## The tests -/

/-- `j["status"] == s`. -/
def hasStatus (s : String) (j : Json) : Bool := j.find? (lit "status") = some (.str (lit s))

/-- `j["history"].get<history_type>()`, second and third column (the tests look at no other). -/
def shown (j : Json) : Option (List (Str × Str)) :=
  match j.find? (lit "history") with
  | some (.arr l) => l.mapM fun
    | .arr [.str _, .str b, .str c] => some (b, c)
    | _ => none
  | _ => none

/-- What a test that expects the rows `l` checks. -/
def lists (l : List (String × String)) : Res Json → Bool
  | .ok j => hasStatus "ok" j && decide (shown j = some (l.map fun x => (lit x.1, lit x.2)))
  | _ => false

/-- What a test that expects an error checks. -/
def complains : Res Json → Bool
  | .ok j => hasStatus "error" j
  | _ => false

/-- `store_inputs` for each line. -/
def stored (l : List (Int × String)) : Hist := l.foldl (fun h x => storeInputs h 0 x.1 (lit x.2) []) []

def four : Hist := stored [(1, "print(3)"), (2, "a = 3"), (3, "print(a)"), (4, "a")]

def four' : Hist := stored [(1, "print(36)"), (2, "a = 3"), (3, "print(a)"), (4, "a")]

/-- test/test_xin_memory_history_manager.cpp:24-56. -/
def testTail : Bool :=
  lists [("1", "print(3)"), ("2", "a = 3"), ("3", "print(a)"), ("4", "a")] (getTail four 1000 true false) &&
  lists [("3", "print(a)"), ("4", "a")] (getTail four 2 true false)

/-- test/test_xin_memory_history_manager.cpp:58-84. -/
def testRange : Bool :=
  lists [("2", "a = 3")] (getRange four 0 1 2 true false) &&
  lists [("2", "a = 3"), ("3", "print(a)")] (getRange four 0 1 3 true false) &&
  complains (getRange four 0 1000 2 true false)

/-- test/test_xin_memory_history_manager.cpp:86-145.  (The last search is only checked for its status there; here also for what it
should be.) -/
def testSearch (R : RegexLib) : Bool :=
  lists [("1", "print(36)"), ("3", "print(a)")] (search R four' (lit "print*") true false 10 false) &&
  lists [("1", "print(36)"), ("3", "print(a)")] (search R four' (lit "print(*)") true false 10 false) &&
  lists [("3", "print(a)")] (search R four' (lit "print(?)") true false 10 false) &&
  lists [("3", "print(a)")] (search R four' (lit "print*") true false 1 false) &&
  lists [("1", "print(36)"), ("3", "print(a)"), ("3", "print(a)")]
    (search R (storeInputs four' 0 3 (lit "print(a)") []) (lit "print*") true false 10 false) &&
  lists [("1", "print(36)"), ("3", "print(a)")]
    (search R (storeInputs four' 0 3 (lit "print(a)") []) (lit "print*") true false 10 true)

/-- test/test_unit_kernel.cpp:24-29. -/
def testUserName (h : Host) : Bool := getUserName h ≠ lit "unspecified user"

/-- test/test_unit_kernel.cpp:31-36. -/
def testPort (w : Setup.World) : Bool :=
  match Setup.findFreePort w 100 49152 65536 with
  | .ok port => port ≠ [] && port.length = 5
  | _ => false

/-- test/test_unit_kernel.cpp:38-45. -/
def testTemp (getenv : Str → Option Str) : Bool :=
  match Sys.tempDirectory getenv with
  | .ok path => path ≠ [] && path.getLast? ≠ some 47 && path.getLast? ≠ some 92
  | _ => false

/-- test/test_unit_kernel.cpp:47-53. -/
def testDirectory (getenv : Str → Option Str) (fs : Sys.Fs) : Bool :=
  match Sys.tempDirectory getenv with
  | .ok path => (Sys.createDirectory fs (path ++ lit "/intermediate/logs")).1
  | _ => false

/-! ## Theorems -/

/-- C101: what a search finds is the same with every standard library. -/
theorem C101_same_search (R R' : RegexLib) (hR : LawfulRegex R) (hR' : LawfulRegex R') (h : Hist) (p : Str) (raw output : Bool) (n : Int)
    (unique : Bool) (hp : 92 ∉ p) (hp0 : 0 ∉ p) (hl : (h.length : Int) ≤ intMax) (hn : 0 ≤ n) (hi : InInt n) :
    search R h p raw output n unique = search R' h p raw output n unique := by
  obtain ⟨sel, rows, h1, h2, h3⟩ := C43_search R hR h p raw output n unique hp hp0 hl hn hi
  obtain ⟨sel', rows', h1', h2', h3'⟩ := C43_search R' hR' h p raw output n unique hp hp0 hl hn hi
  have e : sel = sel' := by
    funext x
    have : sel x = true ↔ sel' x = true := (h1 x).trans (h1' x).symm
    cases hx : sel x <;> cases hx' : sel' x <;> simp_all
  subst e
  rw [h3, h3']
  cases unique with
  | false => rw [h2, h2']
  | true => rw [collapsed_unique h2 h2']

/-- C101: the tests of the history succeed with every standard library. -/
theorem C101_history (R : RegexLib) (hR : LawfulRegex R) : testTail = true ∧ testRange = true ∧ testSearch R = true := by
  refine ⟨by decide +kernel, by decide +kernel, ?_⟩
  have h : ∀ (h : Hist) (p : Str) (n : Int) (u : Bool), 92 ∉ p → 0 ∉ p → (h.length : Int) ≤ intMax → 0 ≤ n → InInt n →
      search R h p true false n u = search stdRegex h p true false n u := fun h p n u h1 h2 h3 h4 h5 =>
    C101_same_search R stdRegex hR stdRegex_lawful h p true false n u h1 h2 h3 h4 h5
  unfold testSearch
  rw [h _ _ _ _ (by decide) (by decide) (by decide +kernel) (by decide) (by decide),
    h _ _ _ _ (by decide) (by decide) (by decide +kernel) (by decide) (by decide),
    h _ _ _ _ (by decide) (by decide) (by decide +kernel) (by decide) (by decide),
    h _ _ _ _ (by decide) (by decide) (by decide +kernel) (by decide) (by decide),
    h _ _ _ _ (by decide) (by decide) (by decide +kernel) (by decide) (by decide),
    h _ _ _ _ (by decide) (by decide) (by decide +kernel) (by decide) (by decide)]
  decide +kernel

example : testSearch stdRegex = true := (C101_history stdRegex stdRegex_lawful).2.2

/-- C101: the test of the user name fails just if the user is unknown to the password database and the environment (or is called just
that). -/
theorem C101_user (h : Host) : testUserName h = false ↔
    (h.pwName = none ∧ h.userVar = none) ∨ h.pwName = some (lit "unspecified user") ∨
      (h.pwName = none ∧ h.userVar = some (lit "unspecified user")) := by
  unfold testUserName getUserName
  cases h.pwName <;> cases h.userVar <;> simp

example : testUserName demoHost = true := by decide +kernel

/-- C101: the test of the port search succeeds just if one of the first hundred drawn ports can be bound. -/
theorem C101_port (w : Setup.World) (hw : Setup.Spec.Draws w) : testPort w = true ↔
    ∃ i, i < 100 ∧ ∃ port, Setup.Spec.Decimal (w.draw 49152 65536 i) port ∧
      (w.net i (Setup.getEndPoint (lit "tcp") (lit "127.0.0.1") port)).isSome = true := by
  obtain ⟨h1, h2⟩ := C67_find w 100 49152 65536 (by decide) hw
  have hlen : ∀ i port, Setup.Spec.Decimal (w.draw 49152 65536 i) port → port ≠ [] ∧ port.length = 5 := by
    intro i port hd
    obtain ⟨ha, hb⟩ := hw 49152 65536 (by decide) i
    obtain rfl := (Setup.decimal_iff _ _).1 hd
    refine ⟨Setup.intToString_ne _, ?_⟩
    unfold intToString
    rw [if_neg (by omega)]
    exact Clock.natDigits_length (k := 4) (by omega) (by omega)
  constructor
  · intro h
    unfold testPort at h
    cases hf : Setup.findFreePort w 100 49152 65536 with
    | ok port =>
      obtain ⟨i, hi, hd, hn, _⟩ := (h1 port).1 hf
      exact ⟨i, hi, port, hd, hn⟩
    | _ => rw [hf] at h; cases h
  · rintro ⟨i, hi, hx⟩
    induction i using Nat.strongRecOn with
    | _ i ih =>
      obtain ⟨port, hd, hn⟩ := hx
      by_cases hj : ∃ j, j < i ∧ ∃ q, Setup.Spec.Decimal (w.draw 49152 65536 j) q ∧
          (w.net j (Setup.getEndPoint (lit "tcp") (lit "127.0.0.1") q)).isSome = true
      · obtain ⟨j, hj, hq⟩ := hj
        exact ih j hj (by omega) hq
      · have hf := (h1 port).2 ⟨i, hi, hd, hn, fun j hji q hq => by
          cases hx : w.net j (Setup.getEndPoint (lit "tcp") (lit "127.0.0.1") q) with
          | none => rfl
          | some l => exact absurd ⟨j, hji, q, hq, by rw [hx]; rfl⟩ hj⟩
        unfold testPort
        rw [hf]
        have := hlen i port hd
        simp [this.1, this.2]

example : testPort someWorld = true :=
  (C101_port someWorld someWorld_draws).2 ⟨1, by decide, intToString (someWorld.draw 49152 65536 1), Setup.decimal_self _, by decide +kernel⟩

theorem two_suffix (x : UInt8) (d : Str) : [x, 47] <:+ d ++ [47] ↔ d.getLast? = some x := by
  constructor
  · rintro ⟨t, ht⟩
    have : t ++ [x] ++ [47] = d ++ [47] := by simpa using ht
    rw [← List.append_cancel_right this]
    simp
  · intro h
    obtain ⟨t, rfl⟩ := List.getLast?_eq_some_iff.1 h
    exact ⟨t, by simp⟩

theorem temp_set (getenv : Str → Option Str) (v : Str) (h : Sys.Spec.FirstSet getenv v) : testTemp getenv = true ↔
    v ≠ [] ∧ v ≠ [47] ∧ v.getLast? ≠ some 92 ∧ ¬ [47, 47] <:+ v ∧ ¬ [92, 47] <:+ v := by
  obtain ⟨h1, h2, h3⟩ := C69_temp getenv v h
  rcases List.eq_nil_or_concat v with rfl | ⟨d, c, hv⟩
  · obtain ⟨why, hu⟩ := h3 rfl
    simp [testTemp, hu]
  · rw [List.concat_eq_append] at hv
    subst hv
    by_cases hc : c = 47
    · subst hc
      simp only [testTemp, h1 d rfl, two_suffix]
      simp [and_assoc]
    · have ht := h2 (by simp) (by simpa using hc)
      simp only [testTemp, ht]
      have n1 : ∀ x : UInt8, ¬ [x, 47] <:+ d ++ [c] := by
        rintro x ⟨t, ht⟩
        have : t ++ [x] ++ [47] = d ++ [c] := by simpa using ht
        have := congrArg List.getLast? this
        simp at this
        exact hc this.symm
      simp only [n1, not_false_eq_true, and_true]
      simp [hc]
      intro _ h
      exact absurd (by simpa using congrArg List.getLast? h) hc

/-- C101: the test of the temporary directory succeeds just if no variable is set, or the first one that is set neither is empty nor
names a directory by a text that ends with a backslash, with two separators, or with a backslash and a separator, nor the root. -/
theorem C101_temp (getenv : Str → Option Str) : testTemp getenv = true ↔
    (∀ x ∈ Sys.Spec.variables, getenv x = none) ∨
    ∃ v, Sys.Spec.FirstSet getenv v ∧ v ≠ [] ∧ v ≠ [47] ∧ v.getLast? ≠ some 92 ∧ ¬ [47, 47] <:+ v ∧ ¬ [92, 47] <:+ v := by
  constructor
  · intro h
    by_cases hn : ∀ x ∈ Sys.Spec.variables, getenv x = none
    · exact .inl hn
    · refine .inr ?_
      have key : ∀ (l pre : List Str), Sys.Spec.variables = pre ++ l → (∀ x ∈ pre, getenv x = none) →
          (∀ x ∈ l, getenv x = none) ∨ ∃ v, Sys.Spec.FirstSet getenv v := by
        intro l
        induction l with
        | nil => intro pre _ _; exact .inl (by simp)
        | cons y l ih =>
          intro pre hp hpre
          cases hy : getenv y with
          | some v => exact .inr ⟨v, pre, y, l, hp, hpre, hy⟩
          | none =>
            rcases ih (pre ++ [y]) (by simpa using hp) (by
              intro x hx
              rcases List.mem_append.1 hx with hx | hx
              · exact hpre x hx
              · rw [List.mem_singleton.1 hx, hy]) with h | h
            · exact .inl (by
                intro x hx
                rcases List.mem_cons.1 hx with rfl | hx
                · exact hy
                · exact h x hx)
            · exact .inr h
      rcases key _ [] rfl (by simp) with h' | ⟨v, hv⟩
      · exact absurd h' hn
      · exact ⟨v, hv, (temp_set getenv v hv).1 h⟩
  · rintro (h | ⟨v, hv, h⟩)
    · unfold testTemp
      rw [C69_temp_default getenv h]
      decide
    · exact (temp_set getenv v hv).2 h

example : testTemp (fun x => if x = lit "TMP" then some (lit "/var/tmp/") else none) = true :=
  (C101_temp _).2 (.inr ⟨lit "/var/tmp/", ⟨[lit "TMPDIR"], lit "TMP", [lit "TEMPDIR", lit "TEMP"], rfl, by decide, by decide⟩,
    by decide, by decide, by decide, by decide, by decide⟩)

/-- C101: the test of `create_directory` succeeds if the temporary directory exists, the process may write to it, and it
contains nothing called `intermediate`. -/
theorem C101_directory (getenv : Str → Option Str) (fs : Sys.Fs) (wf : Sys.Spec.Wf fs) (d : Str) (b : Bool) (c : List Str)
    (ht : Sys.tempDirectory getenv = .ok d) (hd : Sys.Spec.PathOf d b c) (hk : fs.kind ⟨b, c⟩ = some .dir)
    (hw : fs.writable ⟨b, c⟩ = true) (hn : fs.kind ⟨b, c ++ [lit "intermediate"]⟩ = none) : testDirectory getenv fs = true := by
  have hp : Sys.Spec.PathOf (d ++ lit "/intermediate/logs") b (c ++ [lit "intermediate"] ++ [lit "logs"]) := by
    have := Sys.Spec.PathOf.more _ b _ (lit "logs") (.sep _ _ _ (.more d b c (lit "intermediate") (.sep _ _ _ hd) (by decide) (by decide)))
      (by decide) (by decide)
    have e : d ++ [47] ++ lit "intermediate" ++ [47] ++ lit "logs" = d ++ lit "/intermediate/logs" := by
      simp only [List.append_assoc]
      congr 1
    rw [e] at this
    exact this
  have := ((C69_create fs wf _ b _ hp).missing c (lit "intermediate") [lit "logs"] (by simp) (by rw [hk]; simp) hn).1 ⟨hk, hw⟩
  unfold testDirectory
  rw [ht]
  exact this.1

example : testDirectory (fun _ => none) someFs = true :=
  C101_directory _ someFs someFs_wf (lit "/tmp") true [lit "tmp"] (by decide) (.more [] true [] (lit "tmp") .root (by decide) (by decide))
    (by decide) (by decide) (by decide)

end Xeus.Tests
