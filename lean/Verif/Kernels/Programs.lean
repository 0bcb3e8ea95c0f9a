import Verif.Kernels.Model
import Verif.Build.Props

/-!
# The programs that come with the library: lemmas
-/

namespace Xeus

open Spec Kernels Build Build.Spec Setup.Spec

/-! ## Start -/

theorem testConf_run (env : Env) (I : Interp Unit) (q : List Multipart) :
    ∃ acts, (configure env I testConf).run (World.initial () [] q) = (.ok (),
      { World.initial () [] q with acts := acts, comm := ⟨[], [], [(lit "test_target", 0)], [(0, ⟨lit "test_target", some 0, true⟩)], 1⟩ }) :=
  ⟨_, rfl⟩

section

variable {p : Platform} {h : Host} {server : Setup.Worlds → Setup.Config → Res Server} {I : Interp Unit} {conf : Prog Unit DOp Unit}
  {argv : List Str} {k : Kern Unit}

theorem program_ok : program p h server I conf argv = .ok k ↔ ∃ file cfg, fileName argv = .ok file ∧
    Setup.loadConfiguration h.read file = .ok cfg ∧ construct p (givenFor h cfg server I conf) = .ok k := by
  unfold program
  simp only [Res.bind_eq_ok]
  exact ⟨fun ⟨a, h1, b, h2, h3⟩ => ⟨a, b, h1, h2, h3⟩, fun ⟨a, b, h1, h2, h3⟩ => ⟨a, h1, b, h2, h3⟩⟩

theorem program_core (hdbg : I.debug = none) (hk : program p h server I conf argv = .ok k) (hJ : LawfulCodec p.J) (hR : LawfulRegex p.R)
    (hu : Utf8 (getUserName h)) (hn : ∀ n, Utf8 (p.now n)) :
    ∃ core, k.core = some core ∧ core.I = I ∧ Sane core.env ∧ core.env.eh = .strict ∧ core.env.user = getUserName h ∧ Wired core k ∧
      (configure core.env core.I conf).run (World.initial () [] []) = (.ok (), k.w) ∧
      (∃ st : Start Unit, st.w = { k.w with out := [] }) := by
  obtain ⟨file, cfg, _, _, hc⟩ := program_ok.1 hk
  obtain ⟨core, h1, h2, h3, h4, _⟩ := C82_wired _ _ _ hc
  have hd := (C82_calls _ _ _ hc).2.2
  have hd' : k.debugger = none := by
    simp only [givenFor, makeNullDebugger, Res.ok.injEq] at hd
    exact hd.symm
  refine ⟨core, h1, ?_, C82_sane _ _ _ hc core h1 hJ hR (fun M hM => by cases hM) (fun _ => hu) (fun _ => hn) (fun f hf => by cases hf), h3.eh, h3.user, h2,
    (C82_life _ _ _ hc core h1).1, (C82_ready _ _ _ hc core h1 fun f hf => by cases hf).1⟩
  rw [h4, hd']
  show { I with debug := none } = I
  rw [← hdbg]

/-- The programs use the default history manager. -/
theorem program_stock (hk : program p h server I conf argv = .ok k) (hR : LawfulRegex p.R) (core : Core Unit)
    (hc : k.core = some core) : Stock core.env := by
  obtain ⟨file, cfg, _, _, h'⟩ := program_ok.1 hk
  obtain ⟨core', h1, _, h3, _⟩ := C82_wired _ _ _ h'
  cases hc.symm.trans h1
  exact ⟨p.R, hR, h3.libs.2.2.1⟩

end

end Xeus
