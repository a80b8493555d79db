import Verif.Spec.Run
/-!
# Concrete environments and datagrams

Used by the examples and counterexamples beside the theorems.  Nothing here is part of the model.
-/

namespace Utp.Sample

/-- An environment given by lists: datagrams that arrive (then nothing), results of sends (then success) and
random numbers (then 0).  The clock ticks one microsecond per reading. -/
def env (net : List NetEvent) (checks : Bool := false) (snd : List SendRes := []) (rand : List U16 := [7, 100])
    (now : Nat → U32 := fun k => BitVec.ofNat 32 k) : Env where
  checks := checks
  now := now
  rand := fun k => rand.getD k 0
  net := fun k => net.getD k .never
  snd := fun k => snd.getD k .ok
  ewma := fun _ => 0
  cwndStep := fun c _ _ => c

/-- A datagram. -/
def dg (t : PacketType) (cid seq ack : U16) (payload : Bytes := []) (wnd : U32 := 1048576) : Bytes :=
  (((((Packet.withPayload payload).setType t).setConnectionId cid).setSeqNr seq).setAckNr ack).setWndSize wnd |>.bytes

/-- The address of the other side. -/
def peer : Addr := ⟨false, 1⟩
/-- The address of this side. -/
def here : Addr := ⟨false, 0⟩
/-- A third party. -/
def other : Addr := ⟨false, 2⟩

/-- A datagram from the other side arrives. -/
def arr (b : Bytes) : NetEvent := .dgram b peer

/-- The socket made by accepting a SYN with connection id 5 and sequence number 1. -/
def server (E : Env) : World :=
  match accept E 1 (arr (dg .syn 5 1 0)) (.ok here) with
  | .made _ w _ => w
  | _ => freshWorld E here peer

/-- The socket made by accepting a SYN with connection id 5 and another sequence number. -/
def serverAt (seq : U16) (E : Env) : World :=
  match accept E 1 (arr (dg .syn 5 seq 0)) (.ok here) with
  | .made _ w _ => w
  | _ => freshWorld E here peer

/-- The socket made by `connect`. -/
def client (E : Env) (fuel : Nat := 20) : World := (connectM E fuel peer (freshWorld E here ⟨false, 0⟩)).2

/-- The bytes returned. -/
def bytesOf : Res Out → Option Bytes
  | .ok (.bytes b _) => some b
  | _ => none

/-- The datagrams sent so far. -/
def sent (w : World) : List Bytes := w.log.filterMap fun a => match a with | .send _ b _ => some b | _ => none

/-- Operations run in a row without a panic are an execution. -/
theorem run_runs {E : Env} (fuel : Nat) : ∀ (ops : List Op) {w0 w : World}, Run E w0 w →
    .panic ∉ results E fuel ops w → Run E w0 (runs E fuel ops w)
  | [], _, _, h, _ => h
  | op :: ops, w0, w, h, hp => by
    simp only [results, List.mem_cons, not_or] at hp
    exact run_runs fuel ops (.op fuel op h (Ne.symm hp.1)) hp.2

/-- The socket made by `bind`. -/
def bound (E : Env) : World := freshWorld E here peer

/-- What `bound` does is reachable. -/
theorem reach_bound {E : Env} (fuel : Nat) (ops : List Op)
    (hp : .panic ∉ results E fuel ops (bound E)) : Reach E (runs E fuel ops (bound E)) :=
  ⟨_, .bind (.ok [peer]) (.ok here) (w := bound E) rfl, run_runs fuel ops .refl hp⟩

/-- A State packet with a selective ack. -/
def sackDg (cid seq ack : U16) (bits : Bytes) : Bytes :=
  match ((((((Packet.new.setType .state).setConnectionId cid).setSeqNr seq).setAckNr ack).setWndSize 1048576)).setSack bits with
  | some p => p.bytes
  | none => []

/-- What `server` does is reachable when the SYN was accepted. -/
theorem reach_server {E : Env} (fuel : Nat) (ops : List Op)
    (h : accept E 1 (arr (dg .syn 5 1 0)) (.ok here) = .made (.ok ()) (server E) peer)
    (hp : .panic ∉ results E fuel ops (server E)) : Reach E (runs E fuel ops (server E)) :=
  ⟨_, .accept 1 _ _ h (by simp), run_runs fuel ops .refl hp⟩

/-- What `serverAt` does is reachable when the SYN was accepted. -/
theorem reach_serverAt {E : Env} (seq : U16) (fuel : Nat) (ops : List Op)
    (h : accept E 1 (arr (dg .syn 5 seq 0)) (.ok here) = .made (.ok ()) (serverAt seq E) peer)
    (hp : .panic ∉ results E fuel ops (serverAt seq E)) : Reach E (runs E fuel ops (serverAt seq E)) :=
  ⟨_, .accept 1 _ _ h (by simp), run_runs fuel ops .refl hp⟩

/-- What `client` does is reachable when `connect` succeeded. -/
theorem reach_client {E : Env} (fuel : Nat) (ops : List Op) (h : (connectM E 20 peer (freshWorld E here ⟨false, 0⟩)).1 = .ok ())
    (hp : .panic ∉ results E fuel ops (client E)) : Reach E (runs E fuel ops (client E)) :=
  ⟨_, .connect 20 (.ok [peer]) (.ok here) (r := .ok ()) (w := client E) (by
    simp only [connect, takeAddress, client, ← h]; rfl) (by simp), run_runs fuel ops .refl hp⟩

/-- The result of `connect`. -/
theorem connect_client {E : Env} {r : Res Unit} (l : List Addr) (h : (connectM E 20 peer (freshWorld E here ⟨false, 0⟩)).1 = r) :
    connect E 20 (.ok (peer :: l)) (.ok here) = .ok (r, client E) := by
  rw [← h]; rfl

/-- The world of an accepted socket. -/
def acceptWorld : AcceptRes → World
  | .made _ w _ => w
  | _ => bound (env [])

end Utp.Sample
