import Verif.Kernel.Courses

/-!
# All outcomes of execute requests (no property statements here)
-/

namespace Xeus

open Spec K

variable {σ : Type}

theorem strField_withMember {j v j' : Json} {k k' : String} (h : WithMember j k' v j') (hk : lit k ≠ lit k') (d : String) :
    strField j' k d = strField j k d := by
  unfold strField
  rw [h.2.2, if_neg hk]

section
variable {env : Env} {m : XMessage} {c : Chan} {w w₁ w₂ : World σ} {pre : List Ev} {f : ExecFields}
  {x : Res Unit × World σ}

/-- Without reply, but with `idle`. -/
theorem execShape_none {thr : List Ev} (hat : AtCall env m c w (execCount w f) pre (execCall w f) w₁)
    (hann : ExecAnnounce env m c w f pre) (hu : URel env w₁ w₂) (hthr : thr = [] ∨ ∃ e, thr = [.threw e])
    (hc : Concludes env m c w₂ thr x) : ExecShape env m c w f x := by
  obtain ⟨b, outs, i, hb, hi, ho, hout⟩ := concludes_events hat hu rfl hc
  refine ⟨b, pre, outs, thr, [], [], [i], [], by rw [hout]; simp, hb, hann, ho, ?_,
    .inl ⟨rfl, rfl, by rw [hc.hist, hu.hist, hat.hist], by rw [hc.shellQ, hu.shellQ, hat.shellQ]⟩, .nil,
    .inl ⟨hc.ok, i, rfl, hi⟩, by rw [hc.count, hu.count, hat.count], by rw [hc.parent, hu.parent, atCall_parent hat]⟩
  rcases hthr with rfl | ⟨e, rfl⟩
  · exact .inl rfl
  · exact .inr ⟨e, rfl, rfl⟩

/-- The dispatch does not return. -/
theorem execShape_stop {thr : List Ev} (hat : AtCall env m c w (execCount w f) pre (execCall w f) w₁)
    (hann : ExecAnnounce env m c w f pre) (hu : URel env w₁ w₂) (hthr : thr = [] ∨ ∃ e, thr = [.threw e])
    (hx : x.1 ≠ .ok ()) (hx2 : x.2 = { w₂ with out := w₂.out ++ thr }) : ExecShape env m c w f x := by
  obtain ⟨b, hb, hb'⟩ := hat.out
  obtain ⟨outs, ho, hp⟩ := hu.out
  refine ⟨b, pre, outs, thr, [], [], [], [], by rw [hx2]; simp [ho, hb'], hb, hann, ?_, ?_,
    .inl ⟨rfl, rfl, by rw [hx2]; exact hu.hist.trans hat.hist, by rw [hx2]; exact hu.shellQ.trans hat.shellQ⟩, .nil,
    .inr ⟨hx, rfl⟩, by rw [hx2]; exact hu.count.trans hat.count,
    by rw [hx2]; exact hu.parent.trans (atCall_parent hat)⟩
  · intro e he
    have := (hp e he).output
    rwa [atCall_parent hat] at this
  · rcases hthr with rfl | ⟨e, rfl⟩
    · exact .inl rfl
    · exact .inr ⟨e, rfl, rfl⟩

/-- With reply. -/
theorem execShape_reply {w₂' : World σ} {md j : Json} {rep : Ev} {ab : List Ev} {done : List Multipart}
    (hat : AtCall env m c w (execCount w f) pre (execCall w f) w₁)
    (hann : ExecAnnounce env m c w f pre) (hu : URel env w₁ w₂) (ho : w₂'.out = w₂.out)
    (hcnt : w₂'.count = w₂.count) (hpar : w₂'.parent = w₂.parent) (hh : w₂'.hist = w₂.hist ++ execEntries f)
    (hrep : IsReplyWith env c m.ids m.body.header (lit "execute_reply") md j rep)
    (hj : j.find? (lit "execution_count") = some (.int (execCount w f))) (hab : AbortAll env done ab)
    (hq : w₂'.shellQ ≠ w₂.shellQ ∨ ab ≠ [] → ∃ s, strField j "status" "error" = some s ∧ Aborts f s)
    (hc : Concludes env m c w₂' (rep :: ab) x) : ExecShape env m c w f x := by
  obtain ⟨b, outs, i, hb, hi, hpo, hout⟩ := concludes_events hat hu ho hc
  refine ⟨b, pre, outs, [], [rep], ab, [i], done, by rw [hout]; simp, hb, hann, hpo, .inl rfl, .inr ⟨rep, md, j, rfl, hrep,
    hj, by rw [hc.hist, hh, hu.hist, hat.hist], fun h => hq ?_⟩, hab, .inl ⟨hc.ok, i, rfl, hi⟩,
    by rw [hc.count, hcnt, hu.count, hat.count], by rw [hc.parent, hpar, hu.parent, atCall_parent hat]⟩
  rw [hc.shellQ] at h
  rwa [hu.shellQ, hat.shellQ]

end

theorem exec_final {env : Env} (hl : ∀ e, env.log e = .ok ()) {I : Interp σ} {q : Multipart} {m : XMessage} {c : Chan}
    {w : World σ} {f : ExecFields} (hv : ExecCourse env I q m c w f) :
    ExecShape env m c w f ((dispatch env I q c).run w) := by
  obtain ⟨w₁, pre, hat, hann, hstd, hfor, hbad, hok, hdiv⟩ := hv
  have hk := keeps_user hl (execProg I w f) w₁
  rcases hrun : ((execProg I w f).exec (Op.sem env)).run w₁ with ⟨y, w₂⟩
  rw [hrun] at hk
  cases y with
  | ok j =>
    by_cases ho : j.isObj = true ∨ j = .null
    · cases hst : strField j "status" "error" with
      | none => exact execShape_none hat hann hk (.inl rfl) (hbad j w₂ hrun (.inr hst))
      | some s =>
        obtain ⟨j', hwm, _, ⟨_, md, rep, _, hrep, hend⟩ | ⟨_, hc⟩⟩ := hok j w₂ s hrun ho hst
        · have hj : j'.find? (lit "execution_count") = some (.int (execCount w f)) := by rw [hwm.2.2, if_pos rfl]
          have hs' : strField j' "status" "error" = some s := by rw [strField_withMember hwm (by decide), hst]
          by_cases hab : Aborts f s
          · obtain ⟨done, stuck, rest, ab, hsq, _, habs, _, _, _, hend, hub⟩ := hend.2 hab
            by_cases hu : ∃ q ∈ stuck, Undefined env.J env.auth q
            · obtain ⟨why, w₃, hx, ho, hcnt, hh, hpar⟩ := hub hu
              obtain ⟨b, hb, hb'⟩ := hat.out
              obtain ⟨outs, ho', hp⟩ := hk.out
              simp only at ho'
              rw [hx]
              refine ⟨b, pre, outs, [], [rep], ab, [], done, by simp [ho, ho', hb'], hb, hann, ?_, .inl rfl,
                .inr ⟨rep, md, j', rfl, hrep, hj, by rw [hh, hk.hist, hat.hist], fun _ => ⟨s, hs', hab⟩⟩, habs,
                .inr ⟨by simp, rfl⟩, by rw [hcnt, hk.count, hat.count], by rw [hpar, hk.parent, atCall_parent hat]⟩
              intro e he
              have := (hp e he).output
              rwa [atCall_parent hat] at this
            · have hc := hend fun q' hq' h => hu ⟨q', hq', h⟩
              exact execShape_reply hat hann hk (by rfl) (by rfl) (by rfl) (by rfl) hrep hj habs
                (fun _ => ⟨s, hs', hab⟩) hc
          · exact execShape_reply hat hann hk (by rfl) (by rfl) (by rfl) (by rfl) hrep hj .nil
              (fun h => by rcases h with h | h <;> exact absurd rfl h) (hend.1 hab)
        · exact execShape_none hat hann hk (.inl rfl) hc
    · exact execShape_none hat hann hk (.inl rfl) (hbad j w₂ hrun (.inl ho))
  | exc e =>
    cases he : e.isStd with
    | true => exact execShape_none hat hann hk (.inr ⟨e, rfl⟩) (hstd e w₂ hrun he)
    | false =>
      have := hfor e w₂ hrun he
      rw [this]
      exact execShape_stop hat hann hk (.inr ⟨e, rfl⟩) (by simp) (by rfl)
  | ub s =>
    rw [hdiv.1 s w₂ hrun]
    exact execShape_stop hat hann hk (thr := []) (.inl rfl) (by simp) (by simp)
  | hang =>
    rw [hdiv.2 w₂ hrun]
    exact execShape_stop hat hann hk (thr := []) (.inl rfl) (by simp) (by simp)

end Xeus
