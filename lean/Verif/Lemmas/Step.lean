import Verif.Socket
import Verif.Spec.Trace
import Verif.Props.Sack
/-!
# Every operation is a sequence of small steps

`Step` lists the atomic changes the socket code can make to the world, each with what is known when
it happens.  `At` is a program logic; the theorems at the end of `Lemmas/Ops.lean` show that every
operation is a sequence of steps.  Invariants are then proved by cases on `Step`.

A context `V` holds a property of data packets that survives refreshing the timestamps, and which steps are
allowed besides those of receiving: queueing data (`enq`), taking data from the queue (`que`), closing and
setting the retry limit (`ctl`), asking the peer for lost packets (`req`).
-/

namespace Utp
open M

structure Ctx where
  ok : Packet → Prop
  enq : Prop
  que : Prop
  ctl : Prop
  req : Prop

instance : CoeFun Ctx (fun _ => Packet → Prop) := ⟨Ctx.ok⟩

/-- A valid data packet. -/
def ValidData (p : Packet) : Prop :=
  (∃ b, Packet.tryFrom b = some (.ok p)) ∧ p.getType = some .data

/-- `reply` is a reply to `pkt` made from the state `s`. -/
def IsReply (E : Env) (s : Socket) (pkt reply : Packet) : Prop :=
  ∃ t ty, (ty = .state ∨ ty = .reset ∨ (ty = .fin ∧ s.state = .finSent)) ∧
    (reply = s.prepareReply t pkt ty ∨
      ∃ sack, s.buildSack E = some sack ∧ sack ≠ [] ∧ ty ≠ .reset ∧
        (s.prepareReply t pkt ty).setSack sack = some reply)

/-- The packets that are answered: those that are neither State nor Reset, and those for another connection. -/
def Answerable (s : Socket) (pkt : Packet) : Prop :=
  (pkt.getType ≠ some .state ∧ pkt.getType ≠ some .reset) ∨
    ¬ (pkt.connectionId = s.senderId ∨ pkt.connectionId = s.receiverId)

/-- The packets the code hands to the operating system, and where they go. -/
inductive Emitted (E : Env) (V : Ctx) (w : World) : Addr → Packet → Prop
  | data (p : Packet) : V p → Emitted E V w w.s.connectedTo p
  | fin (t : U32) : V.ctl ∨ w.s.state = .finSent → w.s.sendWindow = [] → w.s.state ≠ .new → w.s.state ≠ .synSent →
      Emitted E V w w.s.connectedTo (finPacket w.s t)
  | request (t : U32) : V.req → w.s.sendWindow = [] → w.s.state ≠ .new →
      Emitted E V w w.s.connectedTo (resendRequest w.s t)
  | reply (src : Addr) (pkt reply : Packet) : Received E w pkt src → IsReply E w.s pkt reply →
      Answerable w.s pkt →
      Emitted E V w src (reply.setWndSize WINDOW_SIZE)

/-- Replace the socket. -/
def World.setS (w : World) (s : Socket) : World := { w with s := s }

/-- The packet `send_to` makes of a chunk. -/
def dataPacket (s : Socket) (c : Bytes) : Packet :=
  (((Packet.withPayload c).setSeqNr s.seqNr).setAckNr s.ackNr).setConnectionId s.senderId

/-- The timestamp of a packet is an earlier reading of the clock, or 0 if it was never set. -/
def Stamped (E : Env) (w : World) (p : Packet) : Prop :=
  20 ≤ p.bytes.length ∧ (p.timestamp = 0 ∨ ∃ k, k < w.nNow ∧ p.timestamp = E.now k)

inductive Step (E : Env) (V : Ctx) : World → World → Prop
  | tick (w) : Step E V w { w with nNow := w.nNow + 1 }
  | wait (w) : Step E V w { w with
      nNet := w.nNet + 1
      log := w.log ++ [.wait (if w.s.state ≠ .new then some w.s.congTimeout else none)] }
  | send (w dst p ok) : Emitted E V w dst p →
      Step E V w { w with nSnd := w.nSnd + 1, log := w.log ++ [.send dst p.bytes ok] }
  | giveUp (w) : TimedOut E w w.s.maxRetries.toNat → Step E V w (w.setS { w.s with state := .closed })
  | timeout (w) : TimedOut E w 1 → Step E V w (w.setS { w.s with congTimeout := w.s.congTimeout * 2, cwnd := MSS })
  | touch (w p rest t) : w.s.sendWindow = p :: rest → (∃ k, k < w.nNow ∧ t = E.now k) →
      (∃ dst ok, .send dst (p.setTimestamp t).bytes ok ∈ w.log) →
      Step E V w (w.setS { w.s with sendWindow := p.setTimestamp t :: rest })
  | arrive (w pkt src) : Received E w pkt src → Step E V w (w.setS (w.s.bumpAck pkt))
  | remote (w pkt src t) : Received E w pkt src →
      Step E V w (w.setS { w.s with remoteWnd := pkt.wndSize, theirDelay := absDiff t pkt.timestamp })
  | syn (w pkt src r) : Received E w pkt src → pkt.getType = some .syn → w.s.state = .new →
      Step E V w (w.setS { w.s with
        connectedTo := src, ackNr := pkt.seqNr, seqNr := r, receiverId := pkt.connectionId + 1,
        senderId := pkt.connectionId, state := .connected, lastDropped := pkt.seqNr })
  | draw (w) : Step E V w { w with nRand := w.nRand + 1 }
  | synAck (w pkt src t) : Received E w pkt src → pkt.getType = some .state → w.s.state = .synSent →
      Step E V w (w.setS { w.s with
        connectedTo := src, ackNr := pkt.seqNr, seqNr := w.s.seqNr + 1, state := .connected,
        lastAcked := pkt.ackNr, lastAckedTs := t })
  | finClose (w pkt src) : Received E w pkt src → pkt.getType = some .fin →
      (w.s.state = .connected ∨ w.s.state = .finSent) → Step E V w (w.setS { w.s with state := .closed })
  | finAck (w pkt src) : Received E w pkt src → pkt.getType = some .state → w.s.state = .finSent →
      pkt.ackNr = w.s.seqNr → Step E V w (w.setS { w.s with state := .closed })
  | reset (w pkt src) : Received E w pkt src → pkt.getType = some .reset → w.s.state ≠ .synSent →
      Step E V w (w.setS { w.s with state := .resetReceived })
  | dupAck (w pkt src) : Received E w pkt src → pkt.getType = some .state → w.s.state = .connected →
      pkt.ackNr = w.s.lastAcked → Step E V w (w.setS { w.s with dupAcks := w.s.dupAcks + 1 })
  | newAck (w pkt src t) : Received E w pkt src → pkt.getType = some .state → w.s.state = .connected →
      pkt.ackNr ≠ w.s.lastAcked →
      Step E V w (w.setS { w.s with lastAcked := pkt.ackNr, lastAckedTs := t, dupAcks := 1 })
  | measure (w pkt src i p t s') : Received E w pkt src → pkt.getType = some .state → w.s.state = .connected →
      pkt.ackNr = w.s.lastAcked → (w.s.sendWindow.findIdx? fun q => pkt.ackNr == q.seqNr) = some i →
      w.s.sendWindow[i]? = some p → w.s.onNewAck E i p t = some s' → (0 < w.nNow ∧ t = E.now (w.nNow - 1)) →
      Step E V w (w.setS s')
  | halve (w pkt src) : Received E w pkt src → pkt.getType = some .state → Step E V w (w.setS w.s.halveWindow)
  | advance (w s') :
      (∃ pkt src, Received E w pkt src ∧ pkt.getType = some .state ∧ pkt.ackNr = w.s.lastAcked) →
      w.s.advanceSendWindow E = some s' → Step E V w (w.setS s')
  | insert (w pkt src) : Received E w pkt src → pkt.getType = some .data → pkt.seqNr ≠ w.s.lastDropped →
      Step E V w (w.setS (w.s.insertIntoBuffer pkt))
  | deliverPending (w len) : w.s.pending ≠ [] → Step E V w (w.setS (w.s.takePending len).2)
  | deliverHead (w p rest pl len) : w.s.pending = [] → w.s.incoming = p :: rest →
      (w.s.ackNr = p.seqNr ∨ w.s.ackNr + 1 = p.seqNr) → p.payload = some pl →
      Step E V w (w.setS (w.s.takeHead pl len))
  | setRetries (w n) : V.ctl → Step E V w (w.setS { w.s with maxRetries := n })
  | enqueue (w c) : V.enq → w.s.state ≠ .closed → 0 < c.length → c.length ≤ CHUNK → V (dataPacket w.s c) →
      Step E V w (w.setS (Utp.enqueue w.s c))
  | pop (w p rest) : V.que → w.s.unsent = p :: rest → Step E V w (w.setS { w.s with unsent := rest })
  | push (w p) : V.que → V p → Stamped E w p → (p.timestamp = 0 ∨ ∃ dst ok, .send dst p.bytes ok ∈ w.log) →
      (E.checks = true → w.s.currWindow.toNat + (BitVec.ofNat 32 p.len : U32).toNat < 2 ^ 32) →
      Step E V w (w.setS { w.s with
        currWindow := w.s.currWindow + BitVec.ofNat 32 p.len, sendWindow := w.s.sendWindow ++ [p] })
  | finSent (w) : V.ctl → w.s.sendWindow = [] → w.s.state ≠ .new → w.s.state ≠ .synSent →
      Step E V w (w.setS { w.s with state := .finSent })

inductive Steps (E : Env) (V : Ctx) : World → World → Prop
  | refl (w) : Steps E V w w
  | tail {a b c} : Steps E V a b → Step E V b c → Steps E V a c

namespace Steps
variable {E : Env} {V : Ctx}

theorem single {a b : World} (h : Step E V a b) : Steps E V a b := .tail (.refl a) h

theorem trans {a b c : World} (h : Steps E V a b) (h' : Steps E V b c) : Steps E V a c := by
  induction h' with
  | refl => exact h
  | tail _ s ih => exact .tail ih s

/-- A preorder that contains every step contains every sequence of steps. -/
theorem lift {R : World → World → Prop} (hr : ∀ w, R w w) (ht : ∀ a b c, R a b → R b c → R a c)
    (hs : ∀ a b, Step E V a b → R a b) {a b : World} (h : Steps E V a b) : R a b := by
  induction h with
  | refl => exact hr _
  | tail _ s ih => exact ht _ _ _ ih (hs _ _ s)

/-- An invariant of every step is one of every sequence of steps. -/
theorem inv {I : World → Prop} (hs : ∀ a b, Step E V a b → I a → I b) {a b : World} (h : Steps E V a b) :
    I a → I b :=
  h.lift (R := fun a b => I a → I b) (fun _ h => h) (fun _ _ _ f g h => g (f h)) hs

end Steps

theorem Received.mono {E : Env} {w w' : World} {pkt : Packet} {src : Addr} (h : Received E w pkt src)
    (hn : w.nNet ≤ w'.nNet) : Received E w' pkt src := by
  obtain ⟨k, b, n, hk, rest⟩ := h
  exact ⟨k, b, n, by omega, rest⟩

theorem mem_insertPkt {buf : List Packet} {p q : Packet} (h : q ∈ Socket.insertPkt buf p) : q ∈ buf ∨ q = p := by
  have hins : q ∈ buf.insertIdx (buf.filter fun q => q.seqNr < p.seqNr).length p → q ∈ buf ∨ q = p := by
    intro hq
    rw [List.mem_insertIdx (List.length_filter_le ..)] at hq
    exact hq.symm
  unfold Socket.insertPkt at h
  split at h
  · simpa using h
  · simp only at h
    split at h
    · split at h
      · exact hins h
      · exact .inl h
    · exact hins h

theorem step_nNet {E : Env} {V : Ctx} {w w' : World} (h : Step E V w w') : w.nNet ≤ w'.nNet := by
  cases h <;> simp [World.setS]

theorem Steps.nNet {E : Env} {V : Ctx} {w w' : World} (h : Steps E V w w') : w.nNet ≤ w'.nNet :=
  h.lift (R := fun a b => a.nNet ≤ b.nNet) (fun _ => Nat.le_refl _) (fun _ _ _ => Nat.le_trans)
    (fun _ _ => step_nNet)

end Utp
