import Verif.Dap.PeersLemmas
import Verif.Dap.RouteProps

/-!
# C105: the peers of the adapter's stream socket
-/

namespace Xeus

open Spec

/-! ## C105: the peer -/

/-- C105: as a server the client waits for the first piece from anybody, remembers who sent it, and drops its bytes. -/
theorem C105_server (own : Str) (as : List Piece) :
    initTcp .server own (partsOf as) = as.head?.map fun a => (a.peer, partsOf as.tail) := by
  cases as with
  | nil => rfl
  | cons a as => rfl

/-- C105: as a TCP client it receives nothing. -/
theorem C105_client (own : Str) (as : List Piece) : initTcp .client own (partsOf as) = some (own, partsOf as) := rfl

example : initTcp .server (lit "x") (partsOf [⟨lit "a", []⟩, ⟨lit "b", lit "1"⟩]) = some (lit "a", [lit "b", lit "1"]) := by
  decide +kernel

/-- C105: whatever is sent goes to the peer remembered, bytes and all, in order. -/
theorem C105_sent (id : Str) (bs : List Str) : bs.foldl (fun sent b => sendTcp id b sent) [] = partsOf (bs.map fun b => ⟨id, b⟩) := by
  have key : ∀ (bs sent : List Str), bs.foldl (fun sent b => sendTcp id b sent) sent = sent ++ partsOf (bs.map fun b => ⟨id, b⟩) := by
    intro bs
    induction bs with
    | nil => intro sent; simp [partsOf]
    | cons b bs ih => intro sent; rw [List.foldl_cons, ih]; simp [sendTcp, partsOf]
  simpa using key bs []

/-! ## C105: what is read -/

/-- C105: a read of the parts is a read of the pieces of bytes (C53), whoever sent them; it ends with whole pieces left. -/
theorem C105_read (q : List Str) (as : List Piece) :
    (∃ q' as', as' <:+ as ∧ handleTcp q (as.map Piece.bytes) = .got q' (as'.map Piece.bytes) ∧ handleTcpP q (partsOf as) = .got q' (partsOf as')) ∨
    (∃ e q' as', as' <:+ as ∧ handleTcp q (as.map Piece.bytes) = .thrown e q' (as'.map Piece.bytes) ∧
      handleTcpP q (partsOf as) = .thrown e q' (partsOf as')) ∨
    (handleTcp q (as.map Piece.bytes) = .blocked ∧ handleTcpP q (partsOf as) = .blocked) := by
  have h := handleTcpP_eq q as
  have hc := handleTcp_counter q (as.map Piece.bytes)
  generalize handleTcp q (as.map Piece.bytes) = r at h hc ⊢
  generalize handleTcpP q (partsOf as) = r' at h ⊢
  cases h with
  | got q' as' hs => exact .inl ⟨q', as', hs, rfl, rfl⟩
  | thrown e q' as' hs => exact .inr (.inl ⟨e, q', as', hs, rfl, rfl⟩)
  | blocked => exact .inr (.inr ⟨rfl, rfl⟩)
  | endless => exact absurd rfl hc

theorem readsP_of {q cs q' cs' : List Str} (h : Reads q cs q' cs') : ∀ as : List Piece, cs = as.map Piece.bytes →
    ∃ as', as' <:+ as ∧ cs' = as'.map Piece.bytes ∧ ReadsP q (partsOf as) q' (partsOf as') := by
  induction h with
  | refl => intro as hs; exact ⟨as, List.suffix_refl _, hs, .refl⟩
  | step h1 _ ih =>
    intro as hs
    subst hs
    rcases C105_read _ as with ⟨q₁, as₁, g1, g2, g3⟩ | ⟨e, q₁, as₁, g1, g2, g3⟩ | ⟨g1, g2⟩
    · rw [h1] at g2
      cases g2
      obtain ⟨as', k1, k2, k3⟩ := ih as₁ rfl
      exact ⟨as', k1.trans g1, k2, .step g3 k3⟩
    · rw [h1] at g2; cases g2
    · rw [h1] at g1; cases g1

/-- C105: if the bytes of all peers, in the order of arrival, are a sequence of messages, the messages are delivered as if one peer had sent them. -/
theorem C105_mixed {ms : List DapMsg} (hms : ∀ m ∈ ms, m.Ok) {as : List Piece} (h : bytesOf as = wireOfMsgs ms) (q : List Str) :
    ∃ as', as' <:+ as ∧ ReadsP q (partsOf as) (q ++ bodies ms) (partsOf as') ∧ bytesOf as' = [] := by
  obtain ⟨cs, h1, h2⟩ := C53_all hms (cs := as.map Piece.bytes) h q
  obtain ⟨as', g1, g2, g3⟩ := readsP_of h1 as rfl
  exact ⟨as', g1, g3, by rw [bytesOf, ← g2]; exact h2⟩

theorem bytesFrom_all {id : Str} {as : List Piece} (h : ∀ a ∈ as, a.peer ≠ id → a.bytes = []) : bytesFrom id as = bytesOf as := by
  induction as with
  | nil => rfl
  | cons a as ih =>
    have ih := ih fun x hx => h x (List.mem_cons_of_mem _ hx)
    simp only [bytesFrom, bytesOf, List.map_cons, List.flatten_cons] at ih ⊢
    by_cases ha : a.peer = id
    · rw [if_pos ha, ih]
    · rw [if_neg ha, ih, h a (List.mem_cons_self ..) ha]; rfl

/-- C105: as long as all others only connect and disconnect, exactly the messages of the adapter are delivered, in order. -/
theorem C105_adapter {ms : List DapMsg} (hms : ∀ m ∈ ms, m.Ok) {id : Str} {as : List Piece} (h : bytesFrom id as = wireOfMsgs ms)
    (ho : ∀ a ∈ as, a.peer ≠ id → a.bytes = []) (q : List Str) :
    ∃ as', as' <:+ as ∧ ReadsP q (partsOf as) (q ++ bodies ms) (partsOf as') ∧ bytesFrom id as' = [] := by
  obtain ⟨as', h1, h2, h3⟩ := C105_mixed hms (as := as) (by rw [← bytesFrom_all ho]; exact h) q
  exact ⟨as', h1, h2, by rw [bytesFrom_all fun a ha => ho a (h1.subset ha)]; exact h3⟩

/-- Two messages of the adapter in three pieces; another peer connects and disconnects. -/
def twoPeers : List Piece :=
  [⟨lit "a", lit "Content-Le"⟩, ⟨lit "b", []⟩, ⟨lit "a", lit "ngth: 2\r\n\r\n{}Content-Length: 1\r\n\r\n"⟩, ⟨lit "b", []⟩, ⟨lit "a", lit "1"⟩]

example : (∀ m ∈ [plainMsg (lit "{}"), plainMsg (lit "1")], m.Ok) ∧
    bytesFrom (lit "a") twoPeers = wireOfMsgs [plainMsg (lit "{}"), plainMsg (lit "1")] ∧
    (∀ a ∈ twoPeers, a.peer ≠ lit "a" → a.bytes = []) ∧ handleTcpP [] (partsOf twoPeers) = .got [lit "{}", lit "1"] [] := by
  refine ⟨?_, by decide +kernel, by decide +kernel, by decide +kernel⟩
  intro m hm
  simp only [List.mem_cons, List.not_mem_nil, or_false] at hm
  rcases hm with rfl | rfl <;> exact plainMsg_ok (by decide +kernel)

/-! ## Findings -/

/-- Finding (C105): the message of a stranger is taken as one of the adapter's. -/
theorem C105_stranger_witness : ∃ (id other : Str) (as : List Piece) (q : List Str), id ≠ other ∧ bytesFrom id as = [] ∧
    initTcp .server [] (partsOf (⟨id, []⟩ :: as)) = some (id, partsOf as) ∧ handleTcpP [] (partsOf as) = .got q [] ∧ q = [disconnectText] :=
  ⟨lit "a", lit "b", [⟨lit "b", dapFrame disconnectText⟩], [disconnectText], by decide +kernel, by decide +kernel, by decide +kernel,
    by decide +kernel, rfl⟩

/-- Finding (C105): a response to `disconnect` from a stranger reaches the debugger as the answer to its request, whatever that is, and ends the
client. -/
theorem C105_ended_witness : ∃ (id : Str) (as : List Piece) (s s' : Dap Nat), bytesFrom id as = dapFrame eventText ∧
    s.tcpIn = as.map Piece.bytes ∧ s.out = [] ∧ DapReach plainClient s s' ∧ s'.requestStop = true ∧
    .tcp (lit "disconnect, please") ∈ s'.out ∧ .reply disconnectText ∈ s'.out :=
  ⟨lit "a", [⟨lit "a", dapFrame eventText⟩, ⟨lit "b", dapFrame disconnectText⟩], plainStart, plain2, by decide +kernel, by decide +kernel,
    by decide +kernel, plain_reach2, by decide +kernel, by decide +kernel, by decide +kernel⟩

/-- Finding (C105): a message that arrives between two pieces of another one spoils it: two peers send one message each, and what is
delivered is neither. -/
theorem C105_spoilt_witness : ∃ (as : List Piece) (x y : DapMsg) (q ps : List Str), x.Ok ∧ y.Ok ∧ bytesFrom (lit "a") as = wireOfMsgs [x] ∧
    bytesFrom (lit "b") as = wireOfMsgs [y] ∧ handleTcpP [] (partsOf as) = .got q ps ∧ q ≠ [] ∧ x.body ∉ q ∧ y.body ∉ q :=
  ⟨[⟨lit "a", lit "Content-Length: 32\r\n\r\n012345678"⟩, ⟨lit "b", lit "Content-Length: 2\r\n\r\n{}"⟩, ⟨lit "a", lit "90123456789012345678901"⟩],
    plainMsg (lit "01234567890123456789012345678901"), plainMsg (lit "{}"),
    [lit "012345678Content-Length: 2\r\n\r\n{}"], [lit "a", lit "90123456789012345678901"], plainMsg_ok (by decide +kernel), plainMsg_ok (by decide +kernel),
    by decide +kernel, by decide +kernel, by decide +kernel, by decide +kernel, by decide +kernel, by decide +kernel⟩

/-- Finding (C105): the notice that the connection of the first run ended is still there when the client is started again as a server: it
takes the adapter that is gone for the new one. -/
theorem C105_restart_witness : ∃ (gone new : Str) (as as' : List Piece) (q : List Str), gone ≠ new ∧
    initTcp .server [] (partsOf as) = some (gone, partsOf (as.drop 1)) ∧ handleTcpP [] (partsOf (as.drop 1)) = .got q (partsOf as') ∧
    q = [disconnectText] ∧ as' = [⟨gone, []⟩, ⟨new, []⟩] ∧ initTcp .server [] (partsOf as') = some (gone, partsOf [⟨new, []⟩]) :=
  ⟨lit "a", lit "b", [⟨lit "a", []⟩, ⟨lit "a", dapFrame disconnectText⟩, ⟨lit "a", []⟩, ⟨lit "b", []⟩], [⟨lit "a", []⟩, ⟨lit "b", []⟩], [disconnectText],
    by decide +kernel, by decide +kernel, by decide +kernel, by decide +kernel, by decide +kernel, by decide +kernel⟩

end Xeus
