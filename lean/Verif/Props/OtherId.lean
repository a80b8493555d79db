import Verif.Lemmas.OtherId
import Verif.Lemmas.Reach
import Verif.Samples
/-!
# C111: the connection identifiers do not matter
-/

namespace Utp
open M

variable {E : Env} {ρ : U16 → U16} {rand' : Nat → U16}

/-- C111: replace every connection identifier on the wire and in the socket by another one, different ones by different ones.  Then
all operations return the same results, and the socket and everything sent is the same but for the identifiers.  In particular no
number drawn at random influences an established connection. -/
theorem C111_identifiers (hρ : Function.Injective ρ) (fuel : Nat) : ∀ (ops : List Op) (w : World), w.s.state ≠ .new →
    results (E.reid ρ rand') fuel ops (w.reid ρ) = results E fuel ops w ∧ runs (E.reid ρ rand') fuel ops (w.reid ρ) = (runs E fuel ops w).reid ρ
  | [], _, _ => ⟨rfl, rfl⟩
  | op :: ops, w, hw => by
    obtain ⟨h1, h2, h3⟩ := ids_op (E := E) (rand' := rand') hρ fuel op w hw
    obtain ⟨h4, h5⟩ := C111_identifiers hρ fuel ops (runOp E fuel op w).2 h3
    simp only [results, runs, h2]
    exact ⟨by rw [h4, sameRes_eq h1], h5⟩

/-- C111: a connection made by `connect` is the same whichever number is drawn for its identifiers (src/util.rs:32-40): if the
datagrams of the network carry identifiers shifted by the difference, `connect` succeeds alike and so do all later operations. -/
theorem C111_connect (fuel fuel' : Nat) (resolved : Except ErrorKind (List Addr)) (wild : Except ErrorKind Addr) (ops : List Op) {w : World}
    {d : U16} (hd : (sequentialIdentifiers (rand' 0)).1 = (sequentialIdentifiers (E.rand 0)).1 + d)
    (h : connect E fuel resolved wild = .ok (.ok (), w)) :
    connect (E.reid (· + d) rand') fuel resolved wild = .ok (.ok (), w.reid (· + d)) ∧
      results (E.reid (· + d) rand') fuel' ops (w.reid (· + d)) = results E fuel' ops w ∧
      (runs (E.reid (· + d) rand') fuel' ops (w.reid (· + d))).log = (runs E fuel' ops w).log.map (Act.reid (· + d)) := by
  have hρ : Function.Injective (fun x : U16 => x + d) := fun a b hab => by simpa using hab
  unfold connect at h ⊢
  generalize takeAddress resolved = res at h ⊢
  rcases res with e | addr
  · cases h
  · rcases wild with k | la
    · cases h
    · simp only [Except.ok.injEq] at h ⊢
      have h2 : (sequentialIdentifiers (rand' 0)).2 = (sequentialIdentifiers (E.rand 0)).2 + d := by
        have e : ∀ x, (sequentialIdentifiers x).2 = (sequentialIdentifiers x).1 + 1 := by
          intro x
          unfold sequentialIdentifiers
          split
          · rfl
          · exact (BitVec.sub_add_cancel x 1).symm
        rw [e, e, hd, BitVec.add_assoc, BitVec.add_assoc, BitVec.add_comm d 1]
      have hf : freshWorld (E.reid (· + d) rand') la { v6 := addr.v6, id := 0 } = (freshWorld E la { v6 := addr.v6, id := 0 }).reid (· + d) := by
        simp only [freshWorld, World.reid, Socket.reid, Socket.fromRawParts, List.map_nil, show (E.reid (· + d) rand').rand = rand' from rfl, hd, h2]
      obtain ⟨h3, h4⟩ := connectM_reid (E := E) (rand' := rand') hρ fuel addr (freshWorld E la { v6 := addr.v6, id := 0 })
      rw [hf, h3]
      rw [h] at h4 ⊢
      obtain ⟨h5, h6⟩ := C111_identifiers (E := E) (rand' := rand') hρ fuel' ops w (h4 rfl)
      exact ⟨rfl, h5, by rw [h6]; rfl⟩

/-- C111: the same for a connection made by `accept`, whichever identifier the other side chose. -/
theorem C111_accept (hρ : Function.Injective ρ) (fuel fuel' : Nat) (ev : NetEvent) (bound : Except ErrorKind Addr) (ops : List Op) {r : Res Unit} {w : World} {src : Addr}
    (h : accept E fuel ev bound = .made r w src) (hp : r ≠ .panic) (h1 : ρ (w.s.senderId + 1) = ρ w.s.senderId + 1) (h2 : ρ w.s.senderId ≠ 65535) :
    accept (E.reid ρ E.rand) fuel (ev.reid ρ) bound = .made r (w.reid ρ) src ∧
      results (E.reid ρ E.rand) fuel' ops (w.reid ρ) = results E fuel' ops w ∧
      (runs (E.reid ρ E.rand) fuel' ops (w.reid ρ)).log = (runs E fuel' ops w).log.map (Act.reid ρ) := by
  obtain ⟨b, pkt, la, rfl, rfl, hpkt, hty, -, rfl, rfl⟩ := accept_inv h hp
  change ρ (pkt.connectionId + 1) = ρ pkt.connectionId + 1 at h1
  change ρ pkt.connectionId ≠ 65535 at h2
  obtain ⟨h5, h6⟩ := C111_identifiers (E := E) (rand' := E.rand) hρ fuel' ops
    { s := acceptSocket E la src pkt, nNow := 2, nRand := 2, nNet := 0, nSnd := 1
      log := [.send src (acceptReply E la src pkt).bytes (decide (E.snd 0 = .ok))] } (by simp [acceptSocket])
  refine ⟨?_, h5, by rw [h6]; rfl⟩
  have hl : 4 ≤ pkt.bytes.length := by
    obtain ⟨e, h⟩ := tryFrom_long hpkt
    rw [e]; exact h
  have hs : acceptSocket (E.reid ρ E.rand) la src (pkt.reid ρ) = (acceptSocket E la src pkt).reid ρ := by
    simp only [acceptSocket, Socket.reid, Socket.fromRawParts, List.map_nil, reid_seqNr, reid_wndSize, reid_timestamp, reid_connectionId _ hl, h1]
    rfl
  have hr : acceptReply (E.reid ρ E.rand) la src (pkt.reid ρ) = (acceptReply E la src pkt).reid ρ := by
    unfold acceptReply
    rw [hs, reid_prepareReply]
    rfl
  have hc : ¬ ((E.reid ρ E.rand).checks ∧ (pkt.reid ρ).connectionId = 65535) := by
    rw [reid_connectionId _ hl]
    exact fun h => h2 h.2
  have ht : (pkt.reid ρ).getType = some .syn := by rw [reid_getType, hty]
  simp only [accept, NetEvent.reid, ← reid_take _ (show 4 ≤ BUF_SIZE by decide), reid_tryFrom, show Packet.tryFrom (b.take BUF_SIZE) = some (.ok pkt) from hpkt,
    Option.map_some, reidParsed, ht, ne_eq, not_true_eq_false, if_false]
  rw [acceptM, handlePacket_syn_new fuel _ _ ht rfl, if_neg hc]
  have e : ∀ (x : Packet) (v : World), x = acceptReply (E.reid ρ E.rand) la src (pkt.reid ρ) → v = { s := acceptSocket (E.reid ρ E.rand) la src (pkt.reid ρ), nNow := 2, nRand := 2, nNet := 0, nSnd := 0, log := [] } →
      AcceptRes.made (udpSend (E.reid ρ E.rand) src x.bytes v).1 (udpSend (E.reid ρ E.rand) src x.bytes v).2 src =
        .made (match E.snd 0 with | .ok => .ok () | .fail k => .err (.os k) | .never => .pending)
          (World.reid ρ { s := acceptSocket E la src pkt, nNow := 2, nRand := 2, nNet := 0, nSnd := 1, log := [.send src (acceptReply E la src pkt).bytes (decide (E.snd 0 = .ok))] }) src := by
    rintro _ _ rfl rfl
    rw [hs, hr]
    simp only [udpSend, show (E.reid ρ E.rand).snd = E.snd from rfl]
    cases E.snd 0 <;> rfl
  exact e _ _ rfl rfl

namespace Sample

/-- The answer to a SYN, data out of order, a stranger with another identifier, the missing data, and the end of the stream. -/
def idEnv : Env := env [arr (dg .state 7 10 1), arr (dg .data 7 12 1 [2, 2]), arr (dg .data 9 11 1 [6]), arr (dg .data 7 11 2 [1]), arr (dg .fin 7 13 2)]

/-- Another number is drawn. -/
def otherDraw (_ : Nat) : U16 := 65535

example : connect idEnv 20 (.ok [peer]) (.ok here) = .ok (.ok (), client idEnv) := by rfl

example : (sequentialIdentifiers (otherDraw 0)).1 = (sequentialIdentifiers (idEnv.rand 0)).1 + 65527 := by decide

/-- The connection carries data in both directions (the data with the wrong identifier are read too), and the datagrams sent differ in the identifiers. -/
example : (results idEnv 20 [.sendTo [5], .recvFrom 10, .recvFrom 10, .close, .recvFrom 10] (client idEnv)).map bytesOf = [none, some [6], some [2, 2], none, some []] ∧
    (results (idEnv.reid (· + 65527) otherDraw) 20 [.sendTo [5], .recvFrom 10, .recvFrom 10, .close, .recvFrom 10] ((client idEnv).reid (· + 65527))).map bytesOf =
      [none, some [6], some [2, 2], none, some []] ∧
    ((sent (client idEnv)).map fun b => (b.drop 2).take 2) = [[0, 7]] ∧ ((sent ((client idEnv).reid (· + 65527))).map fun b => (b.drop 2).take 2) = [[255, 254]] := by decide +kernel

/-- A SYN with identifier 5 instead carries 299. -/
def idSwap (x : U16) : U16 := x + 294

example : ∃ w, accept idEnv 1 (arr (dg .syn 5 1 0)) (.ok here) = .made (.ok ()) w peer ∧ idSwap (w.s.senderId + 1) = idSwap w.s.senderId + 1 ∧ idSwap w.s.senderId ≠ 65535 :=
  ⟨server idEnv, by rfl, by decide +kernel, by decide +kernel⟩

end Sample

end Utp
