import Verif.Wire.Spec

/-! # Wire format: helper lemmas (no property statements here) -/

namespace Xeus

open Spec

/-! ## Hexadecimal -/

theorem hexVal_hexDigit : ∀ n : Fin 16, hexVal (hexDigit n.val) = some n.val := by decide

theorem hexVal_hexDigit' {n : Nat} (h : n < 16) : hexVal (hexDigit n) = some n :=
  hexVal_hexDigit ⟨n, h⟩

theorem hexVal_some_all : ∀ c : Fin 256, ∀ n, hexVal (UInt8.ofNat c.val) = some n →
    n < 16 ∧ UInt8.ofNat c.val = hexDigit n := by
  intro c n h
  revert n
  have : ∀ c : Fin 256, (match hexVal (UInt8.ofNat c.val) with
    | none => true
    | some n => decide (n < 16 ∧ UInt8.ofNat c.val = hexDigit n)) = true := by decide +kernel
  intro n h
  have := this c
  rw [h] at this
  simpa using this

theorem hexVal_some {c : UInt8} {n : Nat} (h : hexVal c = some n) : n < 16 ∧ c = hexDigit n := by
  have := hexVal_some_all ⟨c.toNat, c.toNat_lt⟩ n
  simpa using this (by simpa using h)

theorem hexString_length (b : Str) : (hexString b).length = 2 * b.length := by
  induction b with
  | nil => rfl
  | cons x xs ih => simp only [hexString, List.flatMap_cons, List.length_append] at *; simp [hexByte, ih]; omega

theorem unhex_hexString (b : Str) : unhex (hexString b) = some b := by
  induction b with
  | nil => rfl
  | cons x xs ih =>
    have hx := x.toNat_lt
    have h1 : hexVal (hexDigit (x.toNat / 16)) = some (x.toNat / 16) := hexVal_hexDigit' (by omega)
    have h2 : hexVal (hexDigit (x.toNat % 16)) = some (x.toNat % 16) := hexVal_hexDigit' (by omega)
    have h3 : 16 * (x.toNat / 16) + x.toNat % 16 = x.toNat := by omega
    have ih' : unhex (List.flatMap hexByte xs) = some xs := ih
    have h4 : unhex (hexString (x :: xs)) = some (UInt8.ofNat (16 * (x.toNat / 16) + x.toNat % 16) :: xs) := by
      simp [-UInt8.ofNat_add, -UInt8.ofNat_mul, hexString, hexByte, unhex, h1, h2, ih']
    rw [h4, h3]; simp

theorem unhex_some {s b : Str} (h : unhex s = some b) : s = hexString b := by
  induction s using unhex.induct generalizing b with
  | case1 => simp [unhex] at h; subst h; rfl
  | case2 => simp [unhex] at h
  | case3 a c r ih =>
    simp only [unhex, Option.bind_eq_bind, Option.bind_eq_some_iff] at h
    obtain ⟨x, hx, y, hy, t, ht, he⟩ := h
    simp at he; subst he
    obtain ⟨hx1, hx2⟩ := hexVal_some hx
    obtain ⟨hy1, hy2⟩ := hexVal_some hy
    have := ih ht
    have h256 : (16 * x + y) % 256 = 16 * x + y := by omega
    have d1 : (16 * x + y) / 16 = x := by omega
    have d2 : (16 * x + y) % 16 = y := by omega
    simp [hexString, hexByte, h256, d1, d2, hx2, hy2]
    simpa [hexString] using this

theorem hexString_inj {a b : Str} (h : hexString a = hexString b) : a = b := by
  have := unhex_hexString a
  rw [h, unhex_hexString] at this
  simpa using this.symm

/-! ## Signatures -/

theorem hexSig_eq (C : Crypto) (d : Digest) (key : Str) (h p m c : Frame) :
    hexSig C d key h p m c = hexString (C.hmac d key (h ++ p ++ m ++ c)) := by
  simp [hexSig, hmacInit, hmacUpdate, hmacFinal]

theorem hexSig_length (C : Crypto) (d : Digest) (key : Str) (h p m c : Frame) :
    (hexSig C d key h p m c).length = 2 * d.size := by
  rw [hexSig_eq, hexString_length, C.size]

theorem verify_ub_iff (C : Crypto) (a : Auth) (s h p m c : Frame) :
    (∃ w, verify C a s h p m c = .ub w) ↔ SigShort a s := by
  cases a with
  | none => simp [verify, SigShort]
  | hmac d key =>
    simp only [verify, hexSig_length, SigShort]
    split <;> simp_all

theorem take_eq_prefix {s h : Str} : (s.take h.length == h) = true ↔ ∃ t, s = h ++ t := by
  rw [beq_iff_eq]
  constructor
  · intro he
    exact ⟨s.drop h.length, by
      calc s = s.take h.length ++ s.drop h.length := (List.take_append_drop _ _).symm
        _ = h ++ s.drop h.length := by rw [he]⟩
  · rintro ⟨t, rfl⟩
    simp

theorem sigGood_hmac (C : Crypto) (d : Digest) (key : Str) (s h p m c : Frame) :
    SigGood C (.hmac d key) s h p m c ↔ ∃ t, s = hexSig C d key h p m c ++ t := by
  constructor
  · rintro ⟨s', t, hs, hsig⟩
    have := unhex_some hsig
    exact ⟨t, by rw [hs, this, hexSig_eq]⟩
  · rintro ⟨t, hs⟩
    refine ⟨_, t, hs, ?_⟩
    unfold IsSignature
    rw [hexSig_eq, unhex_hexString]

theorem verify_true_iff (C : Crypto) (a : Auth) (s h p m c : Frame) :
    verify C a s h p m c = .ok true ↔ SigGood C a s h p m c := by
  cases a with
  | none => simp [verify, SigGood]
  | hmac d key =>
    rw [sigGood_hmac]
    simp only [verify]
    split
    · next hlt =>
      simp
      intro t ht
      rw [ht] at hlt
      simp at hlt
      omega
    · simp only [Res.ok.injEq]
      exact take_eq_prefix

theorem verify_false_iff (C : Crypto) (a : Auth) (s h p m c : Frame) :
    verify C a s h p m c = .ok false ↔ ¬ SigShort a s ∧ ¬ SigGood C a s h p m c := by
  rw [← verify_true_iff, ← verify_ub_iff C a s h p m c]
  cases a with
  | none => simp [verify]
  | hmac d key =>
    simp only [verify]
    split <;> simp

theorem verify_cases (C : Crypto) (a : Auth) (s h p m c : Frame) :
    (∃ w, verify C a s h p m c = .ub w) ∨ (∃ b, verify C a s h p m c = .ok b) := by
  cases a with
  | none => simp [verify]
  | hmac d key =>
    simp only [verify]
    split <;> simp

theorem verify_sign (C : Crypto) (a : Auth) (h p m c : Frame) :
    verify C a (sign C a h p m c) h p m c = .ok true := by
  rw [verify_true_iff]
  cases a with
  | none => trivial
  | hmac d key => rw [sigGood_hmac]; exact ⟨[], by simp [sign]⟩

/-! ## Messages -/

theorem delimiter_eq : delimiter = delim := by decide

theorem isDelimiter_iff (f : Frame) : isDelimiter f = true ↔ f = delim := by
  rw [isDelimiter, delimiter_eq]
  constructor
  · intro h; simp at h; exact h.2
  · rintro rfl; decide

/-- The identity loop splits at the first delimiter. -/
theorem idLoop_split (ids : List Str) (rest : Multipart) (f : Frame)
    (w : Multipart) (hw : f :: w = ids ++ delim :: rest) (hd : delim ∉ ids) (acc : List Str) :
    rest ≠ [] → idLoop acc f w = (acc ++ ids, rest) := by
  intro hr
  induction ids generalizing f w acc with
  | nil =>
    simp at hw
    obtain ⟨rfl, rfl⟩ := hw
    cases w with
    | nil => exact absurd rfl hr
    | cons x xs => simp [idLoop, (isDelimiter_iff delim).2 rfl]
  | cons i is ih =>
    simp at hw hd
    obtain ⟨rfl, rfl⟩ := hw
    have hnd : isDelimiter f = false := by
      cases h : isDelimiter f with
      | false => rfl
      | true => exact absurd ((isDelimiter_iff f).1 h).symm hd.1
    cases hcase : is ++ delim :: rest with
    | nil => simp at hcase
    | cons x xs =>
      rw [show idLoop acc f (x :: xs) = idLoop (acc ++ [f]) x xs by simp [idLoop, hnd]]
      rw [ih x xs hcase.symm hd.2]
      simp

/-- Whenever the loop leaves frames behind, it stopped at the first delimiter. -/
theorem idLoop_sound (f : Frame) (w : Multipart) (acc : List Str) (ids : List Str)
    (rest : Multipart) (h : idLoop acc f w = (ids, rest)) (hr : rest ≠ []) :
    ∃ ids', ids = acc ++ ids' ∧ f :: w = ids' ++ delim :: rest ∧ delim ∉ ids' := by
  induction w generalizing f acc with
  | nil => simp [idLoop] at h; exact absurd h.2 hr
  | cons x xs ih =>
    simp only [idLoop] at h
    split at h
    · next hd =>
      simp at h
      obtain ⟨rfl, rfl⟩ := h
      exact ⟨[], by simp, by simp [(isDelimiter_iff f).1 hd], by simp⟩
    · next hd =>
      obtain ⟨ids', h1, h2, h3⟩ := ih x (acc ++ [f]) h
      refine ⟨f :: ids', by simp [h1], by simp [h2], ?_⟩
      simp [h3]
      intro he
      exact hd ((isDelimiter_iff f).2 he.symm)

/-- The loop leaves nothing behind iff there is no delimiter or it is the last frame. -/
theorem idLoop_empty (f : Frame) (w : Multipart) (acc ids : List Str)
    (h : idLoop acc f w = (ids, [])) :
    delim ∉ f :: w ∨ ∃ ids', f :: w = ids' ++ [delim] ∧ delim ∉ ids' := by
  induction w generalizing f acc with
  | nil =>
    by_cases hf : f = delim
    · right; exact ⟨[], by simp [hf], by simp⟩
    · left; simp; exact fun h => hf h.symm
  | cons x xs ih =>
    simp only [idLoop] at h
    split at h
    · simp at h
    · next hd =>
      have hf : f ≠ delim := fun he => hd ((isDelimiter_iff f).2 he)
      rcases ih x (acc ++ [f]) h with h1 | ⟨ids', h1, h2⟩
      · left
        rw [List.mem_cons]
        rintro (h | h)
        · exact hf h.symm
        · exact h1 h
      · right
        refine ⟨f :: ids', by simp [h1], ?_⟩
        simp [h2]
        exact fun h => hf h.symm

theorem splitAt_unique {w : Multipart} {i₁ i₂ : List Str} {r₁ r₂ : Multipart}
    (h₁ : SplitAt w i₁ r₁) (h₂ : SplitAt w i₂ r₂) : i₁ = i₂ ∧ r₁ = r₂ := by
  obtain ⟨e₁, n₁⟩ := h₁
  obtain ⟨e₂, n₂⟩ := h₂
  rw [e₁] at e₂
  clear e₁
  induction i₁ generalizing i₂ with
  | nil =>
    cases i₂ with
    | nil => simpa using e₂
    | cons a as =>
      simp at e₂ n₂
      exact absurd e₂.1 n₂.1
  | cons a as ih =>
    cases i₂ with
    | nil =>
      simp at e₂ n₁
      exact absurd e₂.1.symm n₁.1
    | cons b bs =>
      simp at e₂ n₁ n₂
      obtain ⟨h1, h2⟩ := ih n₁.2 e₂.2 n₂.2
      exact ⟨by rw [e₂.1, h1], h2⟩

/-- How `deserialize` proceeds once the split is known. -/
theorem deserialize_split (C : Crypto) (K : Codec) (a : Auth) {w : Multipart} {ids : List Str}
    {rest : Multipart} (h : SplitAt w ids rest) (hr : rest ≠ []) :
    deserialize C K a w = (deserializeBase C K a rest >>= fun b => .ok ⟨ids, b⟩) := by
  obtain ⟨hw, hd⟩ := h
  cases w with
  | nil => simp at hw
  | cons f w =>
    have := idLoop_split ids rest f w hw hd [] hr
    simp [deserialize, pop, this, hr]

theorem deserialize_nodelim (C : Crypto) (K : Codec) (a : Auth) {w : Multipart} (hw : w ≠ [])
    (hd : delim ∉ w ∨ ∃ ids, SplitAt w ids []) :
    deserialize C K a w = .exc (.runtime "Delimiter not present in message") := by
  cases w with
  | nil => exact absurd rfl hw
  | cons f w =>
    cases hl : idLoop [] f w with
    | mk ids rest =>
      by_cases hr : rest = []
      · subst hr; simp [deserialize, pop, hl]
      · obtain ⟨ids', _, h2, h3⟩ := idLoop_sound f w [] ids rest hl hr
        rcases hd with hd | ⟨ids2, hs⟩
        · exact absurd (by rw [h2]; simp) hd
        · exact absurd (splitAt_unique hs ⟨h2, h3⟩).2.symm hr

/-- Every non-empty multipart either has no usable delimiter or splits. -/
theorem split_cases (w : Multipart) :
    w = [] ∨ (w ≠ [] ∧ delim ∉ w) ∨ ∃ ids rest, SplitAt w ids rest := by
  by_cases hm : delim ∈ w
  · right; right
    induction w with
    | nil => simp at hm
    | cons x xs ih =>
      by_cases hx : x = delim
      · exact ⟨[], xs, by simp [hx], by simp⟩
      · have : delim ∈ xs := by
          rcases List.mem_cons.1 hm with h | h
          · exact absurd h.symm hx
          · exact h
        obtain ⟨ids, rest, h1, h2⟩ := ih this
        refine ⟨x :: ids, rest, by simp [h1], ?_⟩
        simp [h2]
        exact fun h => hx h.symm
  · by_cases he : w = []
    · left; exact he
    · right; left; exact ⟨he, hm⟩

theorem deserializeBase_short (C : Crypto) (K : Codec) (a : Auth) {rest : Multipart}
    (h : rest.length < 5) : ∃ s, deserializeBase C K a rest = .ub s := by
  match rest, h with
  | [], _ => exact ⟨_, rfl⟩
  | [_], _ => exact ⟨_, rfl⟩
  | [_, _], _ => exact ⟨_, rfl⟩
  | [_, _, _], _ => exact ⟨_, rfl⟩
  | [_, _, _, _], _ => exact ⟨_, rfl⟩
  | _ :: _ :: _ :: _ :: _ :: _, h => simp at h; omega

theorem deserializeBase_five (C : Crypto) (K : Codec) (a : Auth) (s h p m c : Frame)
    (bufs : Multipart) :
    deserializeBase C K a (s :: h :: p :: m :: c :: bufs) =
      (do
        let jh ← K.parseZmq h
        let jp ← K.parseZmq p
        let jm ← K.parseZmq m
        let jc ← K.parseZmq c
        let good ← verify C a s h p m c
        if good then .ok ⟨jh, jp, jm, jc, bufs⟩
        else .exc (.runtime "Signatures don't match")) := rfl

theorem deserializeBase_ok (C : Crypto) (K : Codec) (a : Auth) {rest : Multipart} {b : Body} :
    deserializeBase C K a rest = .ok b ↔
      ∃ s h p m c, rest = s :: h :: p :: m :: c :: b.buffers ∧
        K.parse h = some b.header ∧ K.parse p = some b.parent ∧ K.parse m = some b.metadata ∧
        K.parse c = some b.content ∧ SigGood C a s h p m c := by
  constructor
  · intro hb
    match rest, hb with
    | [], hb => simp [deserializeBase, pop] at hb
    | [_], hb => simp [deserializeBase, pop] at hb
    | [_, _], hb => simp [deserializeBase, pop] at hb
    | [_, _, _], hb => simp [deserializeBase, pop] at hb
    | [_, _, _, _], hb => simp [deserializeBase, pop] at hb
    | s :: h :: p :: m :: c :: bufs, hb =>
      rw [deserializeBase_five] at hb
      simp only [Res.bind_eq_ok] at hb
      obtain ⟨jh, h1, jp, h2, jm, h3, jc, h4, g, h5, h6⟩ := hb
      cases g with
      | false => simp at h6
      | true =>
        simp at h6
        subst h6
        refine ⟨s, h, p, m, c, rfl, ?_, ?_, ?_, ?_, (verify_true_iff ..).1 h5⟩ <;>
          simp only [Codec.parseZmq] at h1 h2 h3 h4
        · split at h1 <;> simp_all
        · split at h2 <;> simp_all
        · split at h3 <;> simp_all
        · split at h4 <;> simp_all
  · rintro ⟨s, h, p, m, c, rfl, h1, h2, h3, h4, h5⟩
    rw [deserializeBase_five]
    simp [Codec.parseZmq, h1, h2, h3, h4, (verify_true_iff C a s h p m c).2 h5]

theorem serializeBase_deserialize (C : Crypto) (K : Codec) (hK : LawfulCodec K) (a : Auth)
    (eh : ErrH) (b : Body) (hb : Representable b) :
    ∃ s h p m c, serializeBase C K a eh b = .ok (s :: h :: p :: m :: c :: b.buffers) ∧
      deserializeBase C K a (s :: h :: p :: m :: c :: b.buffers) = .ok b := by
  obtain ⟨h, h1, h1'⟩ := hK.roundtrip eh _ hb.header.1 hb.header.2
  obtain ⟨p, h2, h2'⟩ := hK.roundtrip eh _ hb.parent.1 hb.parent.2
  obtain ⟨m, h3, h3'⟩ := hK.roundtrip eh _ hb.metadata.1 hb.metadata.2
  obtain ⟨c, h4, h4'⟩ := hK.roundtrip eh _ hb.content.1 hb.content.2
  refine ⟨sign C a h p m c, h, p, m, c, ?_, ?_⟩
  · simp [serializeBase, Codec.writeZmq, h1, h2, h3, h4]
  · rw [deserializeBase_ok]
    exact ⟨_, h, p, m, c, rfl, h1', h2', h3', h4', (verify_true_iff ..).1 (verify_sign ..)⟩

/-- Outcome of the five-frame part when the JSON frames do not all parse. -/
theorem deserializeBase_parseError (C : Crypto) (K : Codec) (a : Auth) (s h p m c : Frame)
    (bufs : Multipart)
    (hp : K.parse h = none ∨ K.parse p = none ∨ K.parse m = none ∨ K.parse c = none) :
    deserializeBase C K a (s :: h :: p :: m :: c :: bufs) = .exc .parseError := by
  rw [deserializeBase_five]
  simp only [Codec.parseZmq]
  cases h1 : K.parse h <;> simp
  cases h2 : K.parse p <;> simp
  cases h3 : K.parse m <;> simp
  cases h4 : K.parse c <;> simp
  simp [h1, h2, h3, h4] at hp

/-- Outcome of the five-frame part when the JSON frames parse. -/
theorem deserializeBase_parsed (C : Crypto) (K : Codec) (a : Auth) (s h p m c : Frame)
    (bufs : Multipart) {jh jp jm jc : Json} (h1 : K.parse h = some jh) (h2 : K.parse p = some jp)
    (h3 : K.parse m = some jm) (h4 : K.parse c = some jc) :
    deserializeBase C K a (s :: h :: p :: m :: c :: bufs) =
      (verify C a s h p m c >>= fun good =>
        if good then .ok ⟨jh, jp, jm, jc, bufs⟩ else .exc (.runtime "Signatures don't match")) := by
  rw [deserializeBase_five]
  simp only [Codec.parseZmq, h1, h2, h3, h4, Res.bind_ok]

theorem undefined_ub (C : Crypto) (K : Codec) (a : Auth) (w : Multipart) (h : Undefined K a w) :
    ∃ why, deserialize C K a w = .ub why := by
  rcases h with rfl | ⟨ids, rest, hs, h0, h5⟩ | ⟨ids, sig, h, p, md, c, bufs, hs, h1, h2, h3, h4, h5⟩
  · exact ⟨_, rfl⟩
  · have hr : rest ≠ [] := by intro he; simp [he] at h0
    obtain ⟨s, e⟩ := deserializeBase_short C K a h5
    exact ⟨s, by rw [deserialize_split C K a hs hr, e]; rfl⟩
  · obtain ⟨jh, h1⟩ := Option.isSome_iff_exists.1 h1
    obtain ⟨jp, h2⟩ := Option.isSome_iff_exists.1 h2
    obtain ⟨jm, h3⟩ := Option.isSome_iff_exists.1 h3
    obtain ⟨jc, h4⟩ := Option.isSome_iff_exists.1 h4
    obtain ⟨s, e⟩ := (verify_ub_iff C a sig h p md c).2 h5
    exact ⟨s, by rw [deserialize_split C K a hs (by simp),
      deserializeBase_parsed C K a sig h p md c bufs h1 h2 h3 h4, e]; rfl⟩

theorem refused_exc (C : Crypto) (K : Codec) (a : Auth) (w : Multipart) (h : Refused C K a w) :
    ∃ e, deserialize C K a w = .exc e ∧ e.isStd = true := by
  rcases h with ⟨h1, h2⟩ | ⟨ids, hs⟩ | ⟨ids, sig, h, p, md, c, bufs, hs, hp⟩
  · exact ⟨_, deserialize_nodelim C K a h1 (.inl h2), rfl⟩
  · have hne : w ≠ [] := by rw [hs.1]; simp
    exact ⟨_, deserialize_nodelim C K a hne (.inr ⟨ids, hs⟩), rfl⟩
  · by_cases hpar : K.parse h = none ∨ K.parse p = none ∨ K.parse md = none ∨ K.parse c = none
    · exact ⟨_, by rw [deserialize_split C K a hs (by simp),
        deserializeBase_parseError C K a sig h p md c bufs hpar]; rfl, rfl⟩
    · simp only [not_or] at hpar
      obtain ⟨n1, n2, n3, n4⟩ := hpar
      have hv := (verify_false_iff C a sig h p md c).2 (by
        rcases hp with e | e | e | e | e
        · exact absurd e n1
        · exact absurd e n2
        · exact absurd e n3
        · exact absurd e n4
        · exact e)
      obtain ⟨jh, h1⟩ := Option.ne_none_iff_exists'.1 n1
      obtain ⟨jp, h2⟩ := Option.ne_none_iff_exists'.1 n2
      obtain ⟨jm, h3⟩ := Option.ne_none_iff_exists'.1 n3
      obtain ⟨jc, h4⟩ := Option.ne_none_iff_exists'.1 n4
      exact ⟨_, by rw [deserialize_split C K a hs (by simp),
        deserializeBase_parsed C K a sig h p md c bufs h1 h2 h3 h4, hv]; rfl, rfl⟩

theorem accepted_ok (C : Crypto) (K : Codec) (a : Auth) (w : Multipart) (m : XMessage)
    (h : Accepted C K a w m) : deserialize C K a w = .ok m := by
  obtain ⟨s, h, p, md, c, hs, h1, h2, h3, h4, h5⟩ := h
  rw [deserialize_split C K a hs (by simp),
    (deserializeBase_ok C K a).2 ⟨s, h, p, md, c, rfl, h1, h2, h3, h4, h5⟩]
  rfl

/-- Every multipart falls in (at least) one of the three classes. -/
theorem trichotomy (C : Crypto) (K : Codec) (a : Auth) (w : Multipart) :
    (∃ m, Accepted C K a w m) ∨ Refused C K a w ∨ Undefined K a w := by
  obtain hw | hw | ⟨ids, rest, hs⟩ := split_cases w
  · exact .inr (.inr (.inl hw))
  · exact .inr (.inl (.inl hw))
  · match rest, hs with
    | [], hs => exact .inr (.inl (.inr (.inl ⟨ids, hs⟩)))
    | [_], hs => exact .inr (.inr (.inr (.inl ⟨ids, _, hs, by simp, by simp⟩)))
    | [_, _], hs => exact .inr (.inr (.inr (.inl ⟨ids, _, hs, by simp, by simp⟩)))
    | [_, _, _], hs => exact .inr (.inr (.inr (.inl ⟨ids, _, hs, by simp, by simp⟩)))
    | [_, _, _, _], hs => exact .inr (.inr (.inr (.inl ⟨ids, _, hs, by simp, by simp⟩)))
    | sig :: h :: p :: md :: c :: bufs, hs =>
      cases h1 : K.parse h with
      | none => exact .inr (.inl (.inr (.inr ⟨ids, _, _, _, _, _, _, hs, .inl h1⟩)))
      | some jh =>
      cases h2 : K.parse p with
      | none => exact .inr (.inl (.inr (.inr ⟨ids, _, _, _, _, _, _, hs, .inr (.inl h2)⟩)))
      | some jp =>
      cases h3 : K.parse md with
      | none => exact .inr (.inl (.inr (.inr ⟨ids, _, _, _, _, _, _, hs, .inr (.inr (.inl h3))⟩)))
      | some jm =>
      cases h4 : K.parse c with
      | none =>
        exact .inr (.inl (.inr (.inr ⟨ids, _, _, _, _, _, _, hs, .inr (.inr (.inr (.inl h4)))⟩)))
      | some jc =>
        by_cases hsh : SigShort a sig
        · exact .inr (.inr (.inr (.inr ⟨ids, sig, h, p, md, c, bufs, hs, by simp [h1], by simp [h2],
            by simp [h3], by simp [h4], hsh⟩)))
        · by_cases hg : SigGood C a sig h p md c
          · exact .inl ⟨⟨ids, ⟨jh, jp, jm, jc, bufs⟩⟩, sig, h, p, md, c, hs, h1, h2, h3, h4, hg⟩
          · exact .inr (.inl (.inr (.inr ⟨ids, sig, h, p, md, c, bufs, hs,
              .inr (.inr (.inr (.inr ⟨hsh, hg⟩)))⟩)))

end Xeus
