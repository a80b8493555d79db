import Verif.UtpStream
/-!
# Model of a listener over time (src/socket.rs:1175-1306)

`accept` in `Verif/Socket.lean` is one call whose awaits are all ready.  Here a call of `accept` is a future with three awaits: for a datagram, for the new UDP socket,
and for the reply to be sent.  Any number of such futures exist at a time (`accept` takes `&self`); each of them may be polled at any moment, get as far as the outside
allows, and be dropped.  `Incoming` keeps one of them.
-/

namespace Utp
open M

/-- What the outside does to a listener: what arrives at its UDP socket, and, for the socket made for the datagram number `k`, the result of binding it and its environment. -/
structure LEnv where
  net : Nat → NetEvent
  bound : Nat → Except ErrorKind Addr
  env : Nat → Env

/-- Where a future of `accept` waits; `k` is the number of the datagram it took. -/
inductive AFut
  /-- for a datagram (src/socket.rs:1232) -/
  | receiving
  /-- for the new UDP socket (src/socket.rs:1243-1247) -/
  | binding (k : Nat) (pkt : Packet) (src : Addr)
  /-- for the reply to be sent (src/socket.rs:1253-1256) -/
  | replying (k : Nat) (reply : Packet) (w : World) (src : Addr)

/-- From the datagram to the second await (src/socket.rs:1232-1243). -/
def AFut.onDatagram (k : Nat) : NetEvent → AFut ⊕ AcceptRes
  | .never => .inl .receiving
  | .fail e => .inr (.failed (.os e))
  | .dgram b src =>
    match Packet.tryFrom (b.take BUF_SIZE) with
    | none => .inr .panic
    | some (.error e) => .inr (.failed (.parse e))
    | some (.ok pkt) =>
      match pkt.getType with
      | none => .inr .panic
      | some ty => if ty ≠ .syn then .inr (.failed (.sock .other)) else .inl (.binding k pkt src)

/-- From the new UDP socket to the third await (src/socket.rs:1247-1259). -/
def AFut.onBound (E : Env) (fuel k : Nat) (pkt : Packet) (src : Addr) : Except ErrorKind Addr → AFut ⊕ AcceptRes
  | .error e => .inr (.failed (.os e))
  | .ok la =>
    match handlePacket E fuel (recv E fuel BUF_SIZE) pkt src (freshWorld E la src) with
    | (.ok (some reply), w) => .inl (.replying k reply w src)
    | (.ok none, w) => .inr (.made (.err (.sock .other)) w src)
    | (.err _, w) => .inr (.made (.err (.sock .other)) w src)
    | (.panic, w) => .inr (.made .panic w src)
    | (.pending, w) => .inr (.made .pending w src)

/-- Poll a future of `accept`, when at most `steps` of the things it waits for are there; `n` datagrams were taken before.  The result comes with the number
of the datagram it is about. -/
def pollAccept (L : LEnv) (fuel : Nat) : Nat → AFut → Nat → (AFut ⊕ Nat × AcceptRes) × Nat
  | 0, f, n => (.inl f, n)
  | steps + 1, .receiving, n =>
    if L.net n = .never then (.inl .receiving, n)
    else
      match AFut.onDatagram n (L.net n) with
      | .inl f => pollAccept L fuel steps f (n + 1)
      | .inr r => (.inr (n, r), n + 1)
  | steps + 1, .binding k pkt src, n =>
    match AFut.onBound (L.env k) fuel k pkt src (L.bound k) with
    | .inl f => pollAccept L fuel steps f n
    | .inr r => (.inr (k, r), n)
  | _ + 1, .replying k reply w src, n =>
    if (L.env k).snd w.nSnd = .never then (.inl (.replying k reply w src), n)
    else
      let (r, w) := udpSend (L.env k) src reply.bytes w
      (.inr (k, .made r w src), n)

/-- A listener: how many datagrams were taken, the futures of `accept` by number, and the number of the next one. -/
structure Listener where
  taken : Nat
  fut : Nat → Option AFut
  next : Nat

/-- Change one value of a function. -/
def change {β : Type} (f : Nat → β) (a : Nat) (b : β) : Nat → β := fun x => if x = a then b else f x

/-- The datagram in the hands of a future. -/
def AFut.index : AFut → Option Nat
  | .receiving => none
  | .binding k .. => some k
  | .replying k .. => some k

/-- What a listener can go through: `done` are the results so far with the numbers of their datagrams, `lost` the datagrams whose futures were dropped. -/
inductive LRun (L : LEnv) (fuel : Nat) : Listener → List (Nat × AcceptRes) → List Nat → Prop
  | init : LRun L fuel ⟨0, fun _ => none, 0⟩ [] []
  | call {s : Listener} {done : List (Nat × AcceptRes)} {lost : List Nat} : LRun L fuel s done lost →
      LRun L fuel { s with fut := change s.fut s.next (some .receiving), next := s.next + 1 } done lost
  | poll {s : Listener} {done : List (Nat × AcceptRes)} {lost : List Nat} {i n : Nat} {f f' : AFut} (steps : Nat) : LRun L fuel s done lost →
      s.fut i = some f → pollAccept L fuel steps f s.taken = (.inl f', n) →
      LRun L fuel { s with taken := n, fut := change s.fut i (some f') } done lost
  | ready {s : Listener} {done : List (Nat × AcceptRes)} {lost : List Nat} {i n : Nat} {f : AFut} {r : Nat × AcceptRes} (steps : Nat) : LRun L fuel s done lost →
      s.fut i = some f → pollAccept L fuel steps f s.taken = (.inr r, n) →
      LRun L fuel { s with taken := n, fut := change s.fut i none } (done ++ [r]) lost
  | drop {s : Listener} {done : List (Nat × AcceptRes)} {lost : List Nat} {i : Nat} {f : AFut} : LRun L fuel s done lost →
      s.fut i = some f → LRun L fuel { s with fut := change s.fut i none } done (lost ++ f.index.toList)

/-- What `Incoming` can go through, polled any number of times: its slot, how many datagrams were taken, and the items so far. -/
inductive IRun (L : LEnv) (fuel : Nat) : Option AFut → Nat → List (Option AcceptRes) → Prop
  | init : IRun L fuel none 0 []
  | pending {slot slot' : Option AFut} {n : Nat} {items : List (Option AcceptRes)} (steps : Nat) : IRun L fuel slot n items →
      pollNext AFut.receiving (fun f => (pollAccept L fuel steps f n).1) slot = (none, slot') →
      IRun L fuel slot' (pollAccept L fuel steps (slot.getD .receiving) n).2 items
  | item {slot slot' : Option AFut} {n : Nat} {items : List (Option AcceptRes)} {x : Option (Nat × AcceptRes)} (steps : Nat) : IRun L fuel slot n items →
      pollNext AFut.receiving (fun f => (pollAccept L fuel steps f n).1) slot = (some x, slot') →
      IRun L fuel slot' (pollAccept L fuel steps (slot.getD .receiving) n).2 (items ++ [x.map Prod.snd])

end Utp
