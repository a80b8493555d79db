import Verif.Props.Shutdown
import Verif.Props.Lossy
import Verif.Props.Echo
import Verif.Props.Readable
/-!
# Concrete cases of the theorems about whole connections: C67, C68, C77, C78, C97

The theorems that begin with `connect` and `accept` are applied to two environments each: all their hypotheses hold together.
-/

namespace Utp
namespace Sample
open M

theorem syn_of_seven {E : Env} (h : E.rand 0 = 7) : IsSyn 1 (sequentialIdentifiers (E.rand 0)).1 theSyn := by
  have he : theSyn = (synPacket (freshWorld (senv [] []) here peer).s 0).bytes := by decide +kernel
  have h7 : (sequentialIdentifiers (E.rand 0)).1 = (freshWorld (senv [] []) here peer).s.receiverId := by rw [h]; decide +kernel
  rw [he, h7]
  exact synPacket_syn (freshWorld (senv [] []) here peer).s 0

theorem connect_makes_client {E : Env} {a : World} (h : connect E 20 (.ok [peer]) (.ok here) = .ok (.ok (), a)) : a = client E := by
  have e : connect E 20 (.ok [peer]) (.ok here) = .ok (connectM E 20 peer (freshWorld E here ⟨false, 0⟩)) := rfl
  rw [e] at h
  exact (congrArg Prod.snd (Except.ok.inj h)).symm

/-- The worlds after a conversation of two parts. -/
theorem converse_two {A B : Env} {a b a' b' : World} {x y : List (List Bytes)} {m n : Nat} (F k l : Nat) (hk : k = x.flatten.flatten.length) (hl : l = y.flatten.flatten.length)
    (h : Converse A B a b [⟨true, x, m⟩, ⟨false, y, n⟩] a' b')
    (h1 : (transfer A F x a).1 ≠ .pending) (h2 : (readUntil B m k F b).1 ≠ .pending) (h3 : (transfer B F y (readUntil B m k F b).2).1 ≠ .pending)
    (h4 : (readUntil A n l F (transfer A F x a).2).1 ≠ .pending) :
    a' = (readUntil A n l F (transfer A F x a).2).2 ∧ b' = (transfer B F y (readUntil B m k F b).2).2 := by
  subst hk hl
  cases h with
  | ba h => cases h
  | ab h k1 k2 =>
    obtain ⟨rfl, rfl⟩ := delivered_worlds k1 F h1 h2
    cases k2 with
    | ab h => cases h
    | ba h l1 l2 =>
      obtain ⟨rfl, rfl⟩ := delivered_worlds l1 F h3 h4
      cases l2
      exact ⟨rfl, rfl⟩

/-- `connect` and `accept`, two bytes there, one byte back, `close`. -/
def lifeA : List NetEvent := talkA ++ [arr (dg .state 7 101 3)]
/-- The other side. -/
def lifeB : List NetEvent := talkB ++ [arr (dg .fin 8 3 100 [] 0)]

/-- The life of a connection, as `C68_session_partial` (and with it `C67_connection_partial`) describes it. -/
example : ∃ a a' b' a'' b'' src, connect (senv lifeA []) 20 (.ok [peer]) (.ok here) = .ok (.ok (), a) ∧
    Converse (senv lifeA []) (senv lifeB []) a (readerStart lifeB []) talk a' b' ∧
    (∀ fuel, close (senv lifeA []) (fuel + 2) a' = (.ok (), a'') ∧ recvFrom (senv lifeB []) (fuel + 2) 10 b' = (.ok ([], src), b'')) := by
  have hacc : accept (senv lifeB []) 1 (arr theSyn) (.ok here) = .made (.ok ()) (readerStart lifeB []) peer := by decide +kernel
  have hlog : (readerStart lifeB []).log = [.send peer (dg .state 7 100 1 [] 0) true] := by decide +kernel
  have h0 : (readerStart lifeB []).s.seqNr ≠ 0 := by decide +kernel
  have hfit : ∀ l ∈ talk, ∀ bs ∈ l.batches, (bs.map packetsOf).sum + (if l.first then 1 else (readerStart lifeB []).s.seqNr.toNat) ≤ 32769 := by decide +kernel
  obtain ⟨a, h1, h2⟩ := C68_session_partial (A := senv lifeA []) (B := senv lifeB []) (n := 0) (fuel := 20) (la := here) (addr := peer) (legs := talk)
    (fun n => by simp [senv, env]) (fun n => by simp [senv, env]) (by omega) (fun i h => absurd h (by omega)) (syn_of_seven rfl) hacc hlog rfl h0 (by decide) hfit
  have hrel : Reliable (senv lifeA []) (senv lifeB []) (client (senv lifeA [])) (readerStart lifeB []) talk :=
    reliable_two 5 (by decide +kernel) (by decide +kernel) (by decide +kernel) (by decide +kernel) (by decide +kernel) (by decide +kernel) (by decide +kernel)
      (by decide +kernel)
  obtain rfl := connect_makes_client h1
  obtain ⟨a', b', h3, h4, _⟩ := h2 hrel
  obtain ⟨e1, e2⟩ : a' = (readUntil (senv lifeA []) 3 1 5 (transfer (senv lifeA []) 5 [[[1, 2]]] (client (senv lifeA []))).2).2 ∧
      b' = (transfer (senv lifeB []) 5 [[[9]]] (readUntil (senv lifeB []) 3 2 5 (readerStart lifeB [])).2).2 := 
    converse_two (x := [[[1, 2]]]) (y := [[[9]]]) 5 2 1 (by decide) (by decide) h3 (by decide +kernel) (by decide +kernel) (by decide +kernel) (by decide +kernel)
  have k1 : Arrives (fun fuel => close (senv lifeA []) fuel) a' (senv lifeB []) b' := by
    rw [e1, e2]
    exact arrives_of 5 (fun f h => le_close h) (by decide +kernel) (by decide +kernel)
  have k2 : Arrives (fun fuel => recvFrom (senv lifeB []) fuel 10) b' (senv lifeA []) a' := by
    rw [e1, e2]
    exact arrives_of 5 (fun f h => le_recvFrom h 10) (by decide +kernel) (by decide +kernel)
  obtain ⟨a'', b'', src, h5, _⟩ := h4 10 k1 k2
  exact ⟨_, a', b', a'', b'', src, h1, h3, h5⟩

/-- The echo, from `connect` and `accept` on. -/
example : ∃ a a' b' F, connect (senv echoA []) 20 (.ok [peer]) (.ok here) = .ok (.ok (), a) ∧
    (∀ fuel, F ≤ fuel → echoClient (senv echoA []) [4, 5] (fun _ => 1) fuel a = (.ok [4, 5], a') ∧ handleClient (senv echoB []) fuel (readerStart echoB []) = (.ok (), b')) := by
  have hacc : accept (senv echoB []) 1 (arr theSyn) (.ok here) = .made (.ok ()) (readerStart echoB []) peer := by decide +kernel
  have hlog : (readerStart echoB []).log = [.send peer (dg .state 7 100 1 [] 0) true] := by decide +kernel
  have h0 : (readerStart echoB []).s.seqNr ≠ 0 := by decide +kernel
  have h0' : (readerStart echoB []).s.seqNr.toNat ≤ 32768 := by decide +kernel
  obtain ⟨a, h1, h2⟩ := C78_connection_partial (A := senv echoA []) (B := senv echoB []) (n := 0) (fuel := 20) (la := here) (addr := peer) (msg := [4, 5]) (len := fun _ => 1)
    (fun n => by simp [senv, env]) (fun n => by simp [senv, env]) (by omega) (fun i h => absurd h (by omega)) (syn_of_seven rfl) hacc hlog rfl h0 h0' (by decide) (by decide) (fun _ => by decide)
  obtain rfl := connect_makes_client h1
  obtain ⟨a', b', F, h3, _⟩ := h2 (arrives_of 8 (fun f h => le_echoClient h _ _) (by decide +kernel) (by decide +kernel))
    (arrives_of 8 (fun f h => le_handleClient h) (by decide +kernel) (by decide +kernel))
  exact ⟨_, a', b', F, h1, h3⟩

/-- Two buffers over a network that loses a packet and an acknowledgement, from `connect` and `accept` on. -/
example : ∃ a F, connect (lenv lossyA) 20 (.ok [peer]) (.ok here) = .ok (.ok (), a) ∧
    ∀ fuel, F ≤ fuel → (transfer (lenv lossyA) fuel [[[1, 2]], [[3]]] a).1 = .ok () ∧ (readUntil (lenv lossyB) 5 3 fuel lossyReader).1 = .ok [1, 2, 3] := by
  have hacc : accept (lenv lossyB) 1 (arr theSyn) (.ok here) = .made (.ok ()) lossyReader peer := by decide +kernel
  have hlog : lossyReader.log = [.send peer (dg .state 7 100 1 [] 0) true] := by decide +kernel
  obtain ⟨a, h1, h2⟩ := C77_connection_partial (A := lenv lossyA) (B := lenv lossyB) (n := 0) (fuel := 20) (la := here) (addr := peer) (bufs := [[1, 2], [3]]) (len := 5)
    (by omega) (fun i h => absurd h (by omega)) (syn_of_seven rfl) hacc hlog rfl (by decide) (by decide) (fun n => by simp [lenv, senv, env]) (fun n => by simp [lenv, senv, env])
  obtain rfl := connect_makes_client h1
  have eA : (client (lenv lossyA)).nNet = 1 := by decide +kernel
  have eB : lossyReader.nNet = 0 := by decide +kernel
  have net : Lossy (lenv lossyA) (lenv lossyB) (client (lenv lossyA)) lossyReader (fun fuel => transfer (lenv lossyA) fuel [[[1, 2]], [[3]]])
      (fun fuel => readUntil (lenv lossyB) 5 3 fuel) := by
    refine ⟨fun p => p, fun q => q + 1, fun p => p - 1, fun q => q + 1, fun p q => Nat.lt_succ_iff, ?_, ?_⟩
    · refine channel_of 4 10 (fun p hp => ?_) (fun p p' h => by omega) (by decide +kernel)
      exact lenv_none (by rw [eA]; decide) hp
    · refine channel_of 3 10 (fun p hp => ?_) (fun p p' h => by omega) (by decide +kernel)
      exact lenv_none (by rw [eB]; decide) hp
  have pa : Patient (lenv lossyA) (client (lenv lossyA)) (fun fuel => transfer (lenv lossyA) fuel [[[1, 2]], [[3]]]) :=
    patient_of (fun f f' h => ext_transfer h _) 10 (by decide +kernel) (fun n => lenv_ends (by simp [lossyA, Comes, Expires, arr]) _) (by decide +kernel)
  have pb : Patient (lenv lossyB) lossyReader (fun fuel => readUntil (lenv lossyB) 5 3 fuel) :=
    patient_of (fun f f' h => ext_readUntil h _ _) 10 (by decide +kernel) (fun n => lenv_ends (by simp [lossyB, Comes, Expires, arr]) _) (by decide +kernel)
  obtain ⟨F, hF⟩ := h2 (fun h => absurd h (by decide)) (fun h => absurd h (by decide)) net pa pb
  exact ⟨_, F, h1, hF⟩

/-- The second packet arrives before the first one. -/
def swapB : List NetEvent := [arr (dg .data 8 3 100 [3] 0), arr (dg .data 8 2 100 [1, 2] 0)]

/-- Both packets have arrived, one byte was read: the next call returns more without waiting. -/
example : ∃ out b', out ≠ [] ∧ Offline (readerAfter swapB [] [1]) b' ∧ [1] ++ out <+: [1, 2, 3] ∧
    ∀ fuel, runOp (senv swapB []) fuel (.recvFrom 5) (readerAfter swapB [] [1]) = (.ok (.bytes out (readerAfter swapB [] [1]).s.connectedTo), b') := by
  have h1 : (connectM (senv failA []) 20 peer (freshWorld (senv failA []) here ⟨false, 0⟩)).1 = .ok () := by decide +kernel
  have h2 : results (senv failA []) 20 (([[1, 2], [3]] : List Bytes).map .sendTo) (client (senv failA [])) = ([[1, 2], [3]] : List Bytes).map (fun b => .ok (.count b.length)) := by
    decide +kernel
  have h4 : accept (senv swapB []) 1 (arr theSyn) (.ok here) = .made (.ok ()) (readerStart swapB []) peer := by decide +kernel
  have h5 : .panic ∉ results (senv swapB []) 20 ([1].map .recvFrom) (readerStart swapB []) := by decide +kernel
  have h6 : (sent (senderAfter failA [] (([[1, 2], [3]] : List Bytes).map .sendTo) [])).contains theSyn = true := by decide +kernel
  have h7 : allSent failA (readerAfter swapB [] [1]) = true := by decide +kernel
  have h8 : allSent swapB (senderAfter failA [] (([[1, 2], [3]] : List Bytes).map .sendTo) []) = true := by decide +kernel
  have h9 : ((results (senv swapB []) 20 ([1].map .recvFrom) (readerStart swapB [])).map Res.read).flatten = [1] := by decide +kernel
  have h10 : (readerAfter swapB [] [1]).nNet = 2 := by decide +kernel
  have h := session_of h1 (by decide) h2 (by simp) (by simp [results]) h4 (by decide) h5 h6 h7 h8
  rw [h9] at h
  obtain ⟨d, dst, hr, hd⟩ := h.receiver
  have d0 : DataAt (senv swapB []) 1 2 := ⟨dg .data 8 2 100 [1, 2] 0, peer, ⟨dg .data 8 2 100 [1, 2] 0⟩, rfl, rfl, rfl, rfl⟩
  have d1 : DataAt (senv swapB []) 0 3 := ⟨dg .data 8 3 100 [3] 0, peer, ⟨dg .data 8 3 100 [3] 0⟩, rfl, rfl, rfl, rfl⟩
  have hall : AllArrived (senv swapB []) (readerAfter swapB [] [1]) 2 2 := by
    unfold AllArrived
    rw [h10]
    intro i hi
    match i, hi with
    | 0, _ => exact ⟨1, by omega, d0⟩
    | 1, _ => exact ⟨0, by omega, d1⟩
  exact C97_session_partial h.sender hr hd h.toSender h.toReceiver (by decide) (senv_snd _) (noLate_of (by decide +kernel)) hall (by decide) (by decide)

end Sample
end Utp
