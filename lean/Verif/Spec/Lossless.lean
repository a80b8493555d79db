import Verif.Socket
/-!
# Specification vocabulary: two programs and a network that loses nothing
-/

namespace Utp
open M

/-- The datagrams among some effects. -/
def datagramsOf (l : List Act) : List Bytes :=
  l.filterMap fun
    | .send _ b _ => some b
    | .wait _ => none

/-- `for b in bufs { socket.send_to(b).await?; }` -/
def sendAll (E : Env) (fuel : Nat) : List Bytes → M Unit
  | [] => ret ()
  | b :: rest => andThen (sendTo E fuel b) fun _ => sendAll E fuel rest

/-- The program of the sender: it sends the buffers of a batch, flushes, and goes on with the next batch. -/
def transfer (E : Env) (fuel : Nat) : List (List Bytes) → M Unit
  | [] => ret ()
  | batch :: rest => andThen (sendAll E fuel batch) fun _ => andThen (flush E fuel) fun _ => transfer E fuel rest

/-- The loop of the reader's program: it reads into a buffer of `len` bytes until it has `total` bytes. -/
def readLoop (E : Env) (fuel len total : Nat) : Nat → Bytes → M Bytes
  | 0, _ => never
  | n + 1, got => if total ≤ got.length then ret got else andThen (recvFrom E fuel len) fun x => readLoop E fuel len total n (got ++ x.1)

/-- The program of the reader. -/
def readUntil (E : Env) (len total fuel : Nat) : M Bytes := readLoop E fuel len total fuel []

/-- What the program `m`, started in the world `x`, sends arrives in the environment `Y` at the socket in the world `y`: all of it, unchanged, once, in order
and without anything else in between.  (What arrives after the last datagram that `m` ever sends is left open.) -/
def Arrives {α : Type} (m : Nat → M α) (x : World) (Y : Env) (y : World) : Prop :=
  ∀ fuel i d, (datagramsOf ((m fuel x).2.log.drop x.log.length))[i]? = some d → ∃ src, Y.net (y.nNet + i) = .dgram d src

/-- The sockets of `a` and `b` are the ends of one connection, and have nothing to read. -/
structure Linked (a b : World) : Prop where
  aOpen : a.s.state = .connected
  bOpen : b.s.state = .connected
  aTries : a.s.maxRetries ≠ 0
  bTries : b.s.maxRetries ≠ 0
  toB : a.s.senderId = b.s.receiverId
  toA : b.s.senderId = a.s.receiverId
  aRead : a.s.incoming = [] ∧ a.s.pending = []
  bRead : b.s.incoming = [] ∧ b.s.pending = []

/-- Everything that the socket `s` sent to the socket `r` so far was acknowledged, and `r` takes the next packet of `s`: it has acknowledged
the packet before, or, as a State packet of `s` carried its number already, this one. -/
structure Ready (s r : Socket) : Prop where
  sent : s.sendWindow = [] ∧ s.unsent = [] ∧ s.currWindow = 0
  acked : s.lastAcked ≠ s.seqNr
  next : r.ackNr + 1 = s.seqNr ∧ r.lastDropped + 1 = s.seqNr ∨ r.ackNr = s.seqNr ∧ r.lastDropped ≠ s.seqNr

/-- The number of packets a buffer is cut into. -/
def packetsOf (b : Bytes) : Nat := (b.length + 1379) / 1380

/-- How far the next sequence number is ahead of the last acknowledged one: 1 if everything was acknowledged, but on a socket that has never got an
acknowledgement any number. -/
def Socket.lead (s : Socket) : Nat := (s.seqNr - s.lastAcked).toNat

/-- One part of a conversation: one side sends the buffers `batches`, flushing after each batch, the other reads them with a buffer of `len` bytes. -/
structure Leg where
  /-- Does the first side send? -/
  first : Bool
  batches : List (List Bytes)
  len : Nat

/-- The bytes of a part of a conversation. -/
def Leg.data (l : Leg) : Bytes := l.batches.flatten.flatten

/-- From the worlds `a` and `b`, the sender and the reader finish, with the worlds `a'` and `b'`, and the reader has got all the bytes.  (With any fuel from
some amount on: the programs do not run out of it.) -/
def Delivered (A B : Env) (a b : World) (batches : List (List Bytes)) (len : Nat) (a' b' : World) : Prop :=
  ∃ F, ∀ fuel, F ≤ fuel → transfer A fuel batches a = (.ok (), a') ∧
    readUntil B len batches.flatten.flatten.length fuel b = (.ok batches.flatten.flatten, b')

/-- The conversation `legs` between `a` and `b` succeeds and ends in `a'` and `b'`. -/
inductive Converse (A B : Env) : World → World → List Leg → World → World → Prop
  | done (a b : World) : Converse A B a b [] a b
  | ab {a b a' b' a'' b'' : World} {l : Leg} {rest : List Leg} : l.first = true → Delivered A B a b l.batches l.len a' b' → Converse A B a' b' rest a'' b'' →
      Converse A B a b (l :: rest) a'' b''
  | ba {a b a' b' a'' b'' : World} {l : Leg} {rest : List Leg} : l.first = false → Delivered B A b a l.batches l.len b' a' → Converse A B a' b' rest a'' b'' →
      Converse A B a b (l :: rest) a'' b''

/-- In each part of the conversation the network loses nothing. -/
def Reliable (A B : Env) (a b : World) : List Leg → Prop
  | [] => True
  | l :: rest =>
    if l.first then
      Arrives (fun fuel => transfer A fuel l.batches) a B b ∧ Arrives (fun fuel => readUntil B l.len l.data.length fuel) b A a ∧
        ∀ a' b', Delivered A B a b l.batches l.len a' b' → Reliable A B a' b' rest
    else
      Arrives (fun fuel => transfer B fuel l.batches) b A a ∧ Arrives (fun fuel => readUntil A l.len l.data.length fuel) a B b ∧
        ∀ a' b', Delivered B A b a l.batches l.len b' a' → Reliable A B a' b' rest

/-- No batch is so long that, before an acknowledgement, the numbers of the packets get too far ahead of the last acknowledged one. -/
def Fits (s : Socket) (batches : List (List Bytes)) : Prop := ∀ bs ∈ batches, s.lead + (bs.map packetsOf).sum ≤ 32769

end Utp
