import Verif.World
/-!
# Specification vocabulary: what happened on the network

These notions only mention the environment (what arrived) and the log (what was sent).
-/

namespace Utp

/-- `pkt` arrived from `src` in one of the UDP receives made so far (a datagram is truncated to the
receive buffer, whose size `n` is 1520 bytes in `recv` and 1500 bytes in `connect`). -/
def Received (E : Env) (w : World) (pkt : Packet) (src : Addr) : Prop :=
  ∃ k b n, k < w.nNet ∧ (n = 1520 ∨ n = 1500) ∧ E.net k = .dgram b src ∧
    Packet.tryFrom (b.take n) = some (.ok pkt)

/-- The datagram `bytes` was handed to the operating system for `dst`. -/
def Sent (w : World) (dst : Addr) (bytes : Bytes) : Prop := ∃ ok, Act.send dst bytes ok ∈ w.log

/-- Total size of the packets in `l`. -/
def totalSize (l : List Packet) : Nat := (l.map fun p => p.bytes.length).sum

/-- The last `n` receives all timed out. -/
def TimedOut (E : Env) (w : World) (n : Nat) : Prop :=
  ∃ k, k + n = w.nNet ∧ ∀ j, k ≤ j → j < w.nNet → ∃ e, E.net j = .fail e ∧ (e = .timedOut ∨ e = .wouldBlock)

/-- Two byte strings of the same length that differ at most at the positions from `lo` to before `hi`. -/
def SameBut (lo hi : Nat) (a b : Bytes) : Prop :=
  a.length = b.length ∧ ∀ i, i < lo ∨ hi ≤ i → a[i]? = b[i]?

/-- A datagram without extensions and payload of the given type, with the numbers and the identifier of the socket. -/
structure IsControl (s : Socket) (ty : PacketType) (b : Bytes) : Prop where
  valid : ∃ q, Packet.tryFrom b = some (.ok q) ∧ q.getType = some ty ∧ q.seqNr = s.seqNr ∧ q.ackNr = s.ackNr ∧
    q.connectionId = s.senderId
  short : b.length = 20

/-- What a socket sends on a timeout: the oldest unacknowledged packet with a fresh timestamp; if there is none, a FIN when
closing; nothing when it was never connected; three State packets otherwise (fewer only if `done` is false: a send
did not complete). -/
def TimeoutSends (E : Env) (s : Socket) (done : Prop) (acts : List Act) : Prop :=
  match s.sendWindow with
  | p :: _ => ∃ b ok, acts = [.send s.connectedTo b ok] ∧ SameBut 4 8 p.bytes b ∧ (done → ok = true) ∧
      (8 ≤ p.bytes.length → ∃ k, Packet.timestamp ⟨b⟩ = E.now k)
  | [] =>
    if s.state = .finSent then ∃ b ok, acts = [.send s.connectedTo b ok] ∧ IsControl s .fin b ∧ (done → ok = true)
    else if s.state = .new then acts = []
    else acts.length ≤ 3 ∧ (done → acts.length = 3) ∧
      ∀ a ∈ acts, ∃ b ok, a = .send s.connectedTo b ok ∧ IsControl s .state b

/-- The waiting time of the attempt number `i` of one wait: it doubles with each timeout. -/
def waitAct (s : Socket) (i : Nat) : Act := .wait (if s.state ≠ .new then some (s.congTimeout * 2 ^ i) else none)

/-- What is logged for the attempt number `i` when it times out. -/
def Attempt (E : Env) (s : Socket) (i : Nat) (acts : List Act) : Prop :=
  ∃ sends, acts = waitAct s i :: sends ∧ TimeoutSends E s True sends

/-- A timeout. -/
def NetEvent.isTimeout (e : NetEvent) : Prop := e = .fail .timedOut ∨ e = .fail .wouldBlock

/-- How a wait ends after `n` timeouts, and what the last attempt leaves in the log. -/
inductive WaitEnd (E : Env) (w : World) (n fuel limit : Nat) : Res (Bytes × Addr) → SocketState → List Act → Prop
  | got {b : Bytes} {src : Addr} : n < limit → E.net (w.nNet + n) = .dgram b src →
      WaitEnd E w n fuel limit (.ok (b.take 1520, src)) w.s.state [waitAct w.s n]
  | gaveUp : n = limit → WaitEnd E w n fuel limit (.err (.sock .connectionTimedOut)) .closed []
  | failed {k : ErrorKind} : n < limit → E.net (w.nNet + n) = .fail k → ¬ (NetEvent.fail k).isTimeout →
      WaitEnd E w n fuel limit (.err (.os k)) w.s.state [waitAct w.s n]
  | sendFailed {k : ErrorKind} {j : Nat} {sends : List Act} : n < limit → w.nSnd ≤ j → E.snd j = .fail k → TimeoutSends E w.s False sends →
      WaitEnd E w n fuel limit (.err (.os k)) w.s.state (waitAct w.s n :: sends)
  | waiting : n < limit → E.net (w.nNet + n) = .never → WaitEnd E w n fuel limit .pending w.s.state [waitAct w.s n]
  | sending {j : Nat} {sends : List Act} : n < limit → w.nSnd ≤ j → E.snd j = .never → TimeoutSends E w.s False sends →
      WaitEnd E w n fuel limit .pending w.s.state (waitAct w.s n :: sends)
  | fuel : fuel ≤ n → WaitEnd E w n fuel limit .pending w.s.state []

/-- Everything one wait for a packet does: `n` timeouts, with waiting times that double, each followed by what is sent on
a timeout; at most as many as the limit allows. -/
def WaitTrace (E : Env) (w : World) (fuel limit : Nat) (r : Res (Bytes × Addr)) (w' : World) : Prop :=
  ∃ (blocks : List (List Act)) (tail : List Act), blocks.length ≤ limit ∧ w'.log = w.log ++ blocks.flatten ++ tail ∧
    (∀ i acts, blocks[i]? = some acts → Attempt E w.s i acts ∧ (E.net (w.nNet + i)).isTimeout) ∧
    WaitEnd E w blocks.length fuel limit r w'.s.state tail

end Utp
