import Verif.Kernel.Frame
import Verif.Wire.Props
import Verif.History.Lemmas

/-!
# Concrete material for the `example`s about the kernel
-/

namespace Xeus

open Spec

/-- A kernel with signed messages and the strict error handler. -/
def sampleEnv : Env where
  C := toyCrypto
  J := stdCodec
  auth := sampleAuth
  eh := .strict
  kernelId := lit "k-1"
  user := lit "user"
  session := lit "session"
  guid n := List.replicate n 7
  now _ := lit "2024-01-01T00:00:00.5Z"
  H := inMemory stdRegex
  log _ := .ok ()
  patience := 3

theorem sampleEnv_sane : Sane sampleEnv where
  codec := stdCodec_lawful
  user _ := by show Utf8 (lit "user"); exact utf8_lit (by decide)
  session _ := by show Utf8 (lit "session"); exact utf8_lit (by decide)
  now _ _ := by show Utf8 (lit "2024-01-01T00:00:00.5Z"); exact utf8_lit (by decide)
  log _ := rfl
  manager := inMemory_stdOnly stdRegex_lawful

instance : Stock sampleEnv := ⟨stdRegex, stdRegex_lawful, rfl⟩

/-- An interpreter that prints its input, counts executions, and fails on the code `bad`. -/
def sampleInterp : Interp Nat where
  execute _ code _ _ _ _ :=
    .call (.pub (.stream (lit "stdout") code)) fun _ =>
    .get fun n => .set (n + 1)
      (.ret (.obj [(lit "status", .str (if code = lit "bad" then lit "error" else lit "ok"))]))
  complete _ _ := .ret (.obj [(lit "matches", .arr [])])
  inspect _ _ _ := .throw (.runtime "no documentation")
  isComplete _ := .ret (.obj [(lit "status", .str (lit "complete"))])
  kernelInfo := .ret (.obj [(lit "banner", .str (lit "hello"))])
  shutdown := .ret ()
  internal j := .ret j
  target _ _ _ := .ret ()
  handler _ _ := .ret ()
  debug := some fun _ content => .ret content

/-- A request. -/
def sampleReq (type : String) (content : Json) : XMessage :=
  ⟨[lit "client"], ⟨.obj [(lit "msg_id", .str (lit "m1")), (lit "msg_type", .str (lit type))], .obj [], .obj [],
    content, []⟩⟩

/-- Every such request with a representable type and content can arrive. -/
theorem sampleReq_accepted (type : String) (content : Json) (ht : (lit type).all (· ≤ 0x7F) = true)
    (hc : content.canon = true) (hu : content.allStr utf8b = true) :
    ∃ q, Accepted sampleEnv.C sampleEnv.J sampleEnv.auth q (sampleReq type content) := by
  have hrep : Representable (sampleReq type content).body := by
    refine ⟨⟨?_, ?_⟩, ⟨by show Json.canon (.obj []) = true; decide, .obj (by simp) (by simp)⟩,
      ⟨by show Json.canon (.obj []) = true; decide, .obj (by simp) (by simp)⟩, ⟨hc, (jsonUtf8_iff _).2 hu⟩⟩
    · simp (decide := true) [sampleReq, Json.canon, Json.sortedKeys, Json.canonO]
    · refine .obj ?_ ?_
      · intro kv hkv
        simp only [List.mem_cons, List.not_mem_nil, or_false] at hkv
        rcases hkv with rfl | rfl <;> exact utf8_lit (by decide)
      · intro kv hkv
        simp only [List.mem_cons, List.not_mem_nil, or_false] at hkv
        rcases hkv with rfl | rfl
        · exact .str (utf8_lit (by decide))
        · exact .str (utf8_lit ht)
  obtain ⟨q, _, h⟩ := C01_roundtrip toyCrypto stdCodec stdCodec_lawful (lit "hmac-sha256") (lit "secret") sampleAuth
    sampleAuth (by decide +kernel) (by decide +kernel) .strict (sampleReq type content) hrep
    (by show delim ∉ [lit "client"]; decide)
  exact ⟨q, (C03_accepted_iff ..).1 h⟩

/-- A kernel that has just started. -/
def sampleWorld : World Nat := World.initial 0 [] []

theorem sampleWorld_parents : ParentsOk sampleWorld := fun _ => ⟨by show Json.canon (.obj []) = true; decide, .obj (by simp) (by simp)⟩

/-- Two comms of two targets. -/
def sampleComms : Comms :=
  ⟨[(2, ⟨0, lit "c1", some false, none, none⟩), (3, ⟨1, lit "c2", some false, some 5, some 6⟩)],
   [(lit "c1", 2), (lit "c2", 3)], [(lit "t", 0), (lit "u", 1)],
   [(0, ⟨lit "t", some 0, true⟩), (1, ⟨lit "u", some 1, true⟩)], 4⟩

theorem sampleComms_live : RegistryLive sampleComms := by
  refine ⟨by decide, ?_⟩
  intro id a h
  simp only [sampleComms, List.mem_cons, Prod.mk.injEq, List.not_mem_nil, or_false] at h
  rcases h with ⟨rfl, rfl⟩ | ⟨rfl, rfl⟩ <;> exact ⟨_, _, rfl, rfl⟩

theorem sampleComms_utf8 (id n : Str) (h : registeredTarget sampleComms id = some n) : Utf8 id ∧ Utf8 n := by
  simp only [registeredTarget, sampleComms, alGet] at h
  split at h
  · rename_i hid
    subst hid
    cases h
    exact ⟨utf8_lit (by decide), utf8_lit (by decide)⟩
  · split at h
    · rename_i hid
      subst hid
      cases h
      exact ⟨utf8_lit (by decide), utf8_lit (by decide)⟩
    · cases h

end Xeus
