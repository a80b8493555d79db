import Verif.Lemmas.PeerStart
import Verif.Lemmas.Reach
import Verif.Lemmas.EndToEnd
import Verif.Samples
/-!
# C113: where the sequence numbers of the peer begin does not matter
-/

namespace Utp
open M

variable {E : Env} {d : U16}

theorem plater_run (hn : E.Low d) (fuel : Nat) : ∀ (ops : List Op) (w : World), BegunLow d w.s →
    results (E.peerLater d) fuel ops (w.peerLater d) = results E fuel ops w ∧ runs (E.peerLater d) fuel ops (w.peerLater d) = (runs E fuel ops w).peerLater d
  | [], _, _ => ⟨rfl, rfl⟩
  | op :: ops, w, hw => by
    obtain ⟨h1, h2, h3⟩ := plater_op (E := E) (d := d) hn fuel op w hw
    obtain ⟨h4, h5⟩ := plater_run hn fuel ops (runOp E fuel op w).2 h3
    simp only [results, runs, h2]
    exact ⟨by rw [h4, sameRes_eq h1], h5⟩

/-- C113: add the same number to all sequence numbers of the peer, in the socket and in what arrives.  Then all operations return the
same results, and the socket and everything sent is the same but for that number in the acknowledgements.

Partial: only if the numbers stay below 65535, as the packets that wait for a missing one are sorted and reported without
regard to wrapping (`C113_counterexample_order`, `C113_counterexample_debug`), and a connecting socket takes a packet with
the number 0 for one that it has already had (`C113_counterexample_connect`). -/
theorem C113_start_partial (hn : E.Low d) {w : World} (hr : Reach E w) (hs : w.s.state ≠ .new) (hl : w.s.Low d) (fuel : Nat) (ops : List Op) :
    results (E.peerLater d) fuel ops (w.peerLater d) = results E fuel ops w ∧ runs (E.peerLater d) fuel ops (w.peerLater d) = (runs E fuel ops w).peerLater d :=
  plater_run hn fuel ops w ⟨hs, hl.1, hl.2.1, fun p m => by
    obtain ⟨⟨b, hb⟩, -⟩ := (reach_any hr).inc p m
    exact ⟨tryFrom_header hb, hl.2.2 p m⟩⟩

/-- C113: whichever number the peer chooses for its SYN, an accepted connection is the same; with the same restriction. -/
theorem C113_accept_partial (hn : E.Low d) (fuel fuel' : Nat) (ev : NetEvent) (bound : Except ErrorKind Addr) (ops : List Op) {r : Res Unit} {w : World} {src : Addr}
    (h : accept E fuel ev bound = .made r w src) (hp : r ≠ .panic) (hl : Low d w.s.ackNr) :
    accept (E.peerLater d) fuel (ev.peerLater d) bound = .made r (w.peerLater d) src ∧
      results (E.peerLater d) fuel' ops (w.peerLater d) = results E fuel' ops w ∧
      (runs (E.peerLater d) fuel' ops (w.peerLater d)).log = (runs E fuel' ops w).log.map (Act.peerLater d) := by
  obtain ⟨b, pkt, la, rfl, rfl, hpkt, hty, hid, rfl, rfl⟩ := accept_inv h hp
  change Low d pkt.seqNr at hl
  obtain ⟨h5, h6⟩ := plater_run hn fuel' ops
    { s := acceptSocket E la src pkt, nNow := 2, nRand := 2, nNet := 0, nSnd := 1
      log := [.send src (acceptReply E la src pkt).bytes (decide (E.snd 0 = .ok))] } ⟨by simp [acceptSocket], hl, hl, fun p m => by simp [acceptSocket, Socket.fromRawParts] at m⟩
  refine ⟨?_, h5, by rw [h6]; rfl⟩
  have hlen : 20 ≤ pkt.bytes.length := tryFrom_header hpkt
  have hs : acceptSocket (E.peerLater d) la src (pkt.laterSeq d) = (acceptSocket E la src pkt).peerLater d := by
    simp only [acceptSocket, Socket.peerLater, Socket.fromRawParts, List.map_nil, laterSeq_seqNr _ hlen, laterSeq_wndSize, laterSeq_timestamp, laterSeq_connectionId]
    rfl
  have hr : acceptReply (E.peerLater d) la src (pkt.laterSeq d) = (acceptReply E la src pkt).laterAck d := by
    unfold acceptReply
    rw [hs, plater_prepareReply]
    rfl
  have hc : ¬ ((E.peerLater d).checks ∧ (pkt.laterSeq d).connectionId = 65535) := by
    rw [laterSeq_connectionId]
    exact fun h => hid h.1 h.2
  have ht : (pkt.laterSeq d).getType = some .syn := by rw [laterSeq_getType, hty]
  simp only [accept, NetEvent.peerLater, ← renum_take _ (show 16 + 2 ≤ BUF_SIZE by decide), plater_tryFrom, show Packet.tryFrom (b.take BUF_SIZE) = some (.ok pkt) from hpkt,
    Option.map_some, platerParsed, ht, ne_eq, not_true_eq_false, if_false]
  rw [acceptM, handlePacket_syn_new fuel _ _ ht rfl, if_neg hc]
  have e : ∀ (x : Packet) (v : World), x = acceptReply (E.peerLater d) la src (pkt.laterSeq d) → v = { s := acceptSocket (E.peerLater d) la src (pkt.laterSeq d), nNow := 2, nRand := 2, nNet := 0, nSnd := 0, log := [] } →
      AcceptRes.made (udpSend (E.peerLater d) src x.bytes v).1 (udpSend (E.peerLater d) src x.bytes v).2 src =
        .made (match E.snd 0 with | .ok => .ok () | .fail k => .err (.os k) | .never => .pending)
          (World.peerLater d { s := acceptSocket E la src pkt, nNow := 2, nRand := 2, nNet := 0, nSnd := 1, log := [.send src (acceptReply E la src pkt).bytes (decide (E.snd 0 = .ok))] }) src := by
    rintro _ _ rfl rfl
    rw [hs, hr]
    simp only [udpSend, show (E.peerLater d).snd = E.snd from rfl]
    cases E.snd 0 <;> rfl
  exact e _ _ rfl rfl

namespace Sample

/-- The number of this datagram is low. -/
def lowNumber (d : U16) : NetEvent → Bool
  | .dgram b _ => match Packet.tryFrom (b.take 1520) with
    | some (.ok p) => decide (p.seqNr.toNat + d.toNat < 65535)
    | _ => true
  | _ => true

theorem low_of_all (E : Env) (d : U16) (l : List NetEvent) (he : E.net = fun k => l.getD k .never) (h : l.all (lowNumber d) = true) : E.Low d := by
  intro k b a hk p hp
  rw [he] at hk
  simp only [List.getD_eq_getElem?_getD] at hk
  rcases hl : l[k]? with _ | ev
  · rw [hl] at hk
    cases hk
  · rw [hl] at hk
    simp only [Option.getD_some] at hk
    subst hk
    have := List.all_eq_true.1 h _ (List.mem_of_getElem? hl)
    simp only [lowNumber, hp, decide_eq_true_eq] at this
    exact this

/-- Data arrive out of order, one packet twice; then the end of the stream. -/
def peerEnv : Env :=
  env (checks := true) [arr (dg .data 6 4 100 [4]), arr (dg .data 6 3 100 [3, 3]), arr (dg .data 6 4 100 [4]), arr (dg .data 6 2 100 [2]), arr (dg .fin 6 5 100)]

/-- What is done on the connection. -/
def peerOps : List Op := [.recvFrom 10, .recvFrom 1, .recvFrom 10, .recvFrom 10, .recvFrom 10]

/-- The hypotheses of `C113_start_partial` and `C113_accept_partial` hold in this execution. -/
example : peerEnv.Low 65529 ∧ Reach peerEnv (server peerEnv) ∧ (server peerEnv).s.state ≠ .new ∧ (server peerEnv).s.Low 65529 ∧
    accept peerEnv 1 (arr (dg .syn 5 1 0)) (.ok here) = .made (.ok ()) (server peerEnv) peer :=
  ⟨low_of_all _ _ _ rfl (by decide +kernel), reach_server 20 [] (by rfl) (by decide +kernel), by decide +kernel,
    ⟨show _ < _ by decide +kernel, show _ < _ by decide +kernel, fun p m => absurd m (by rw [show (server peerEnv).s.incoming = [] from rfl]; simp)⟩, by rfl⟩

/-- The numbers 1 to 5 become 65530 to 65534; the same is read, and the acknowledgements differ by 65529. -/
example : (results peerEnv 20 peerOps (server peerEnv)).map bytesOf = [some [2], some [3], some [3], some [4], some []] ∧
    ((sent (runs peerEnv 20 peerOps (server peerEnv))).map fun b => (b.drop 18).take 2) = [[0, 1], [0, 1], [0, 1], [0, 1], [0, 2], [0, 5]] ∧
    ((sent (runs (peerEnv.peerLater 65529) 20 peerOps ((server peerEnv).peerLater 65529))).map fun b => (b.drop 18).take 2) =
      [[255, 250], [255, 250], [255, 250], [255, 250], [255, 251], [255, 254]] := by decide +kernel

/-- The reply to our SYN and a data packet. -/
def firstEnv : Env := env [arr (dg .state 7 9 1), arr (dg .data 7 10 1 [5])]

/-- Two data packets in the wrong order. -/
def wrongEnv (checks : Bool) : Env := env (checks := checks) [arr (dg .data 6 3 100 [3]), arr (dg .data 6 2 100 [2])]

end Sample

section
open Sample

/-- What C113 lacks, 1: a peer answers our SYN with the number 9, and we read its first packet, which has the number 10.  If it answers with the number 65535, its first
packet has the number 0 and is not read: the connecting socket believes to have had it. -/
theorem C113_counterexample_connect : ∃ E w w', Reach E w ∧ Reach (E.peerLater 65526) w' ∧ w.s.ackNr = 9 ∧ w'.s.ackNr = 65535 ∧ w.s.lastDropped = 0 ∧ w'.s.lastDropped = 0 ∧
    bytesOf (runOp E 20 (.recvFrom 10) w).1 = some [5] ∧ (runOp (E.peerLater 65526) 20 (.recvFrom 10) w').1 = .pending :=
  ⟨firstEnv, client firstEnv, client (firstEnv.peerLater 65526), reach_client 20 [] (by rfl) (by decide +kernel), reach_client 20 [] (by rfl) (by decide +kernel), by decide +kernel⟩

/-- What C113 lacks, 2: the packets 3 and 2 arrive in this order, and are read in the right order.  If they have the numbers 0 and 65535, the packet 0 is read first, and the
one before it is never read. -/
theorem C113_counterexample_order : ∃ E w, Reach E w ∧ Reach (E.peerLater 65533) (w.peerLater 65533) ∧ E.checks = false ∧
    (results E 20 [.recvFrom 10, .recvFrom 10] w).map bytesOf = [some [2], some [3]] ∧
    (results (E.peerLater 65533) 20 [.recvFrom 10, .recvFrom 10] (w.peerLater 65533)).map bytesOf = [some [3], none] := by
  refine ⟨wrongEnv false, server (wrongEnv false), reach_server 20 [] (by rfl) (by decide +kernel), ?_, rfl, by decide +kernel, by decide +kernel⟩
  have e : (server (wrongEnv false)).peerLater 65533 = serverAt 65534 ((wrongEnv false).peerLater 65533) := by rfl
  rw [e]
  exact reach_serverAt 65534 20 [] (by rfl) (by decide +kernel)

/-- What C113 lacks, 3: in a debug build, the same datagrams make the second connection panic. -/
theorem C113_counterexample_debug : ∃ E w, Reach E w ∧ Reach (E.peerLater 65533) (w.peerLater 65533) ∧ E.checks = true ∧
    bytesOf (runOp E 20 (.recvFrom 10) w).1 = some [2] ∧ (runOp (E.peerLater 65533) 20 (.recvFrom 10) (w.peerLater 65533)).1 = .panic := by
  refine ⟨wrongEnv true, server (wrongEnv true), reach_server 20 [] (by rfl) (by decide +kernel), ?_, rfl, by decide +kernel, by decide +kernel⟩
  have e : (server (wrongEnv true)).peerLater 65533 = serverAt 65534 ((wrongEnv true).peerLater 65533) := by rfl
  rw [e]
  exact reach_serverAt 65534 20 [] (by rfl) (by decide +kernel)

end

end Utp
