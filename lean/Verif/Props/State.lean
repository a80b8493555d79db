import Verif.Props.Congestion
import Verif.Lemmas.Queue
import Verif.Lemmas.Recv
import Verif.Samples
/-!
# C33, C34, C37, C38: the connection state machine, closing, addresses
-/

namespace Utp
open M

variable {E : Env}

/-! ### C33 -/

/-- The ways in which the connection state may change.  `closing` says whether `close` is running. -/
inductive StateRule (E : Env) (closing : Prop) (a b : World) : Prop
  /-- not at all -/
  | same : b.s.state = a.s.state → StateRule E closing a b
  /-- a fresh socket becomes connected to the sender of a SYN -/
  | syn (pkt : Packet) : Received E a pkt b.s.connectedTo → pkt.getType = some .syn → a.s.state = .new →
      b.s.state = .connected → StateRule E closing a b
  /-- a connecting socket becomes connected to the sender of a State packet -/
  | synAck (pkt : Packet) : Received E a pkt b.s.connectedTo → pkt.getType = some .state → a.s.state = .synSent →
      b.s.state = .connected → StateRule E closing a b
  /-- a FIN closes an open connection -/
  | fin (pkt : Packet) (src : Addr) : Received E a pkt src → pkt.getType = some .fin →
      (a.s.state = .connected ∨ a.s.state = .finSent) → b.s.state = .closed → StateRule E closing a b
  /-- the acknowledgement of the number after the last data packet closes a connection whose FIN was sent -/
  | finAck (pkt : Packet) (src : Addr) : Received E a pkt src → pkt.getType = some .state → pkt.ackNr = a.s.seqNr →
      a.s.state = .finSent → b.s.state = .closed → StateRule E closing a b
  /-- a Reset -/
  | reset (pkt : Packet) (src : Addr) : Received E a pkt src → pkt.getType = some .reset → a.s.state ≠ .synSent →
      b.s.state = .resetReceived → StateRule E closing a b
  /-- the last `max_retransmission_retries` receives timed out -/
  | giveUp : TimedOut E a a.s.maxRetries.toNat → b.s.state = .closed → StateRule E closing a b
  /-- `close` sent the FIN; nothing is outstanding -/
  | close : closing → a.s.sendWindow = [] → a.s.state ≠ .new → a.s.state ≠ .synSent → b.s.state = .finSent →
      StateRule E closing a b

theorem step_state {V : Ctx} {a b : World} (h : Step E V a b) : StateRule E V.ctl a b := by
  cases h with
  | giveUp h => exact .giveUp h rfl
  | syn pkt src r h1 h2 h3 => exact .syn pkt h1 h2 h3 rfl
  | synAck pkt src t h1 h2 h3 => exact .synAck pkt h1 h2 h3 rfl
  | finClose pkt src h1 h2 h3 => exact .fin pkt src h1 h2 h3 rfl
  | finAck pkt src h1 h2 h3 h4 => exact .finAck pkt src h1 h2 h4 h3 rfl
  | reset pkt src h1 h2 h3 => exact .reset pkt src h1 h2 h3 rfl
  | finSent h1 h2 h3 h4 => exact .close h1 h2 h3 h4 rfl
  | measure pkt src i p t s' hg ht _ _ hf hp hm => exact .same (onNewAck_state hm)
  | advance s' hg hm => exact .same (advanceSendWindow_state hm)
  | _ => exact .same (by simp [enqueue, Socket.insertIntoBuffer, Socket.halveWindow])

theorem reach_any {w : World} (hw : Reach E w) : Inv .any w := by
  obtain ⟨w0, h0, hs⟩ := reach_steps .any ⟨trivial, trivial⟩ trivial trivial dataPacket_any hw
  exact (start_inv h0).steps .any hs

theorem queue_any {w : World} (hi : Inv .any w) (buf : Bytes) :
    ∀ p ∈ ((chunks buf.length buf).foldl enqueue w.s).unsent, Ctx.any p := by
  intro p hpm
  rcases fold_enqueue_mem _ _ _ hpm with h | ⟨c, hc, n, rfl⟩
  · exact (hi.uns p h).1
  · exact dataPacket_any _ _ (chunks_bounds _ _ c hc).1 (chunks_bounds _ _ c hc).2

/-- A context for all packets with any permission to close. -/
def Ctx.anyCtl (c : Prop) : Ctx := ⟨Ctx.any.ok, True, True, c, True⟩

/-- Along every operation of every reachable socket the state changes only by the rule above, and only `close` may
enter the closing state.  (Missing for C33: that `close` does so only from Connected, FinSent or ResetReceived,
see the counterexample.) -/
theorem C33_changes_partial {w : World} (hw : Reach E w) (fuel : Nat) (op : Op) (hp : (runOp E fuel op w).1 ≠ .panic) :
    Traced E (StateRule E (op = .close)) w (runOp E fuel op w).2 := by
  have hi := reach_any hw
  by_cases hn : ∃ n, op = .setMaxRetries n
  · obtain ⟨n, rfl⟩ := hn
    exact .tail (.refl _) ⟨.setRetries _ n trivial, .same rfl⟩
  · exact ((at_runOp (V := Ctx.anyCtl (op = .close)) ⟨VOk.any.ts, VOk.any.td⟩ fuel op
      (fun _ _ => ⟨trivial, trivial⟩) (fun h => h.resolve_right hn) (fun _ => trivial) ⟨hi.win, hi.uns, hi.inc, .inl trivial⟩
      (fun buf _ => queue_any hi buf)).1 hp).path fun _ _ h =>
        ⟨h.mono (V := Ctx.anyCtl (op = .close)) (V' := .any) (fun _ h => h) (fun _ => trivial) (fun _ => trivial) (fun _ => trivial) (fun _ => trivial), step_state h⟩

theorem step_ids {V : Ctx} {b c : World} (hs : Step E V b c) (hn : b.s.state ≠ .new) :
    c.s.state ≠ .new ∧ c.s.senderId = b.s.senderId ∧ c.s.receiverId = b.s.receiverId := by
  cases hs with
  | syn pkt src r _ _ hst => exact absurd hst hn
  | measure pkt src i p t s' hg ht _ _ hf hp hm =>
    simpa [onNewAck_senderId hm, onNewAck_receiverId hm, onNewAck_state hm] using hn
  | advance s' _ hm =>
    simpa [advanceSendWindow_senderId hm, advanceSendWindow_receiverId hm, advanceSendWindow_state hm] using hn
  | _ => simp [enqueue, Socket.insertIntoBuffer, Socket.halveWindow, hn]

theorem steps_ids' {V : Ctx} {a b : World} (h : Steps E V a b) (hn : a.s.state ≠ .new) :
    b.s.state ≠ .new ∧ b.s.senderId = a.s.senderId ∧ b.s.receiverId = a.s.receiverId := by
  induction h with
  | refl => exact ⟨hn, rfl, rfl⟩
  | tail h hs ih =>
    obtain ⟨h1, h2, h3⟩ := step_ids hs ih.1
    exact ⟨h1, h2.trans ih.2.1, h3.trans ih.2.2⟩

theorem steps_ids {V : Ctx} {a b : World} (h : Steps E V a b) (he : Established a) :
    b.s.senderId = a.s.senderId ∧ b.s.receiverId = a.s.receiverId ∧ b.s.connectedTo = a.s.connectedTo := by
  refine ⟨(steps_ids' h he.1).2.1, (steps_ids' h he.1).2.2, ?_⟩
  induction h with
  | refl => rfl
  | @tail b c h hs ih =>
    have heb := he.steps h
    rw [← ih]
    cases hs with
    | syn pkt src r _ _ hst => exact absurd hst heb.1
    | synAck pkt src t _ _ hst => exact absurd hst heb.2
    | measure pkt src i p t s' hg ht _ _ hf hp hm => simp [onNewAck_connectedTo hm]
    | advance s' _ hm => simp [advanceSendWindow_connectedTo hm]
    | _ => simp [enqueue, Socket.insertIntoBuffer, Socket.halveWindow]

theorem Reach.run {w w' : World} (hw : Reach E w) (h : Run E w w') : Reach E w' := by
  induction h with
  | refl => exact hw
  | op fuel op _ hp ih =>
    obtain ⟨w0, hm, hr⟩ := ih
    exact ⟨w0, hm, .op fuel op hr hp⟩

/-- A socket that left the handshake states never returns to them, and its peer address and connection
identifiers never change. -/
theorem C33_fixed {w w' : World} (hw : Reach E w) (h : Run E w w') (h1 : w.s.state ≠ .new) (h2 : w.s.state ≠ .synSent) :
    w'.s.state ≠ .new ∧ w'.s.state ≠ .synSent ∧ w'.s.senderId = w.s.senderId ∧ w'.s.receiverId = w.s.receiverId ∧
    w'.s.connectedTo = w.s.connectedTo := by
  have hs := run_steps .any ⟨trivial, trivial⟩ trivial trivial dataPacket_any h (reach_any hw)
  have he := Established.steps hs ⟨h1, h2⟩
  exact ⟨he.1, he.2, steps_ids hs ⟨h1, h2⟩⟩

section
open Sample

/-- Data is sent before the connection exists, with numbers 1 and 2; after the SYN the random start number is 0.  While
`close` flushes, a State packet acknowledges number 0 and reports losses; during the retransmission of
number 1 a FIN arrives. -/
def closeTwice (rest : List NetEvent) : Env :=
  env ([arr (dg .syn 5 1 0), .fail .other, arr (sackDg 6 0 0 [7, 0, 0, 0]), arr (dg .fin 6 2 0)] ++ rest) (rand := [7, 0])

/-- The operations of this execution. -/
def closeTwiceOps : List Op :=
  [.sendTo (List.replicate 1379 1), .sendTo (List.replicate 1379 2), .recvFrom 9, .sendTo [3], .close]

/-- What is missing for C33: `close` moves a socket from Closed back to FinSent.  In the first environment nothing
arrives after the FIN, and the socket is closed; in the second the next receive fails, and the same execution goes on
to send a FIN and to wait for its acknowledgement. -/
theorem C33_counterexample :
    Reach (closeTwice []) (runs (closeTwice []) 20 closeTwiceOps (bound (closeTwice []))) ∧
    (runs (closeTwice []) 20 closeTwiceOps (bound (closeTwice []))).s.state = .closed ∧
    Reach (closeTwice [.fail .other]) (runs (closeTwice [.fail .other]) 20 closeTwiceOps (bound (closeTwice [.fail .other]))) ∧
    (runs (closeTwice [.fail .other]) 20 closeTwiceOps (bound (closeTwice [.fail .other]))).s.state = .finSent ∧
    (runs (closeTwice []) 20 closeTwiceOps (bound (closeTwice []))).log <+:
      (runs (closeTwice [.fail .other]) 20 closeTwiceOps (bound (closeTwice [.fail .other]))).log :=
  ⟨reach_bound _ _ (by decide +kernel), by decide +kernel, reach_bound _ _ (by decide +kernel), by decide +kernel,
    by decide +kernel⟩

/-- A connection is accepted, the peer closes it: the state changes, and nothing else of what `C33_fixed` lists. -/
example : let E := env [arr (dg .fin 6 2 100)]
    Reach E (server E) ∧ Run E (server E) (runs E 10 [.recvFrom 9] (server E)) ∧ (server E).s.state = .connected ∧
    (runs E 10 [.recvFrom 9] (server E)).s.state = .closed ∧ (runs E 10 [.recvFrom 9] (server E)).s.connectedTo = peer ∧
    (runs E 10 [.recvFrom 9] (server E)).s.senderId = 5 :=
  ⟨reach_server 10 [] (by decide +kernel) (by simp [results]), run_runs 10 _ .refl (by decide +kernel), by decide +kernel, by decide +kernel, by decide +kernel,
    by decide +kernel⟩

end

end Utp
