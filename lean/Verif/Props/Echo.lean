import Verif.Lemmas.Echo
import Verif.Props.Cat
import Verif.Props.Lossy
/-!
# The program of examples/echo-server.rs: C78
-/

namespace Utp
open M

section
variable {A B : Env} {a b : World} {msg : Bytes} {len : Bytes → Nat}

/-- **C78.**  On an open connection with nothing outstanding, over a network that loses nothing, in every build and with any clock: a client sends a message of 1 to
1380 bytes and reads to the end; the other side runs `handle_client`.  The client gets its message back, then the end of the stream; both programs end without an
error, the connection is over on both sides, and each side has sent three datagrams: no packet was sent twice.  What is missing for the full property: the first number of the
server is at most 32768 ahead of the last number acknowledged to it (`C78_counterexample`), which is 0 after `accept`. -/
theorem C78_partial (h : Linked a b) (hr : Ready a.s b.s) (hr' : Ready b.s a.s) (hA : ∀ n, A.snd n = .ok) (hB : ∀ n, B.snd n = .ok)
    (hm1 : 0 < msg.length) (hm2 : msg.length ≤ 1380) (hla : a.s.lead ≤ 32768) (hlb : b.s.lead ≤ 32768) (hl : ∀ got, 0 < len got)
    (ha : Arrives (fun fuel => echoClient A msg len fuel) a B b) (hb : Arrives (fun fuel => handleClient B fuel) b A a) :
    ∃ a' b' F, (∀ fuel, F ≤ fuel → echoClient A msg len fuel a = (.ok msg, a') ∧ handleClient B fuel b = (.ok (), b')) ∧
      Over A a' ∧ Over B b' ∧ (sentSince a a').length = 3 ∧ (sentSince b b').length = 3 := by
  obtain ⟨a', b', F, h1, ⟨h2, h3, h4⟩, h5, h6, h7⟩ := echo_run h hr hr' hA hB hm1 hm2 hla hlb hl ha hb
  exact ⟨a', b', F, h1, over_of h2 h3, over_of h5 h6, h4, h7⟩

/-- **C78.**  From `connect` and `accept` on: the server accepts the SYN of the client and handles the connection.  What is missing for the full property: the random first
number of the server is from 1 to 32768 (`C78_counterexample`). -/
theorem C78_connection_partial {n fuel fuel' : Nat} {la la' addr src src' : Addr} {d : Bytes} {reply : Bytes} (hA : ∀ n, A.snd n = .ok) (hB : ∀ n, B.snd n = .ok) (hn : n < 5)
    (hto : ∀ i, i < n → (A.net i).isTimeout) (hsyn : IsSyn 1 (sequentialIdentifiers (A.rand 0)).1 d)
    (hacc : accept B fuel' (.dgram d src) (.ok la') = .made (.ok ()) b src) (hlog : b.log = [.send src reply true]) (hrep : A.net n = .dgram reply src')
    (h0 : b.s.seqNr ≠ 0) (h1 : b.s.seqNr.toNat ≤ 32768) (hm1 : 0 < msg.length) (hm2 : msg.length ≤ 1380) (hl : ∀ got, 0 < len got) :
    ∃ a, connect A fuel (.ok [addr]) (.ok la) = .ok (.ok (), a) ∧
      (Arrives (fun fuel => echoClient A msg len fuel) a B b → Arrives (fun fuel => handleClient B fuel) b A a →
        ∃ a' b' F, (∀ fuel, F ≤ fuel → echoClient A msg len fuel a = (.ok msg, a') ∧ handleClient B fuel b = (.ok (), b')) ∧ Over A a' ∧ Over B b') := by
  obtain ⟨a, c1, c2, c3, c4, c5⟩ := C67_handshake (fuel := fuel) (la := la) (addr := addr) hn hto (fun i _ => hA i) hsyn hacc hlog hrep
  obtain ⟨c6, c7⟩ := c5 h0
  refine ⟨a, c1, fun ha hb => ?_⟩
  obtain ⟨a', b', F, g1, g2, g3, _⟩ := C78_partial c2 c3 c6 hA hB hm1 hm2 (by omega) (by omega) hl ha hb
  exact ⟨a', b', F, g1, g2, g3⟩

end

/-! ### Examples -/

theorem le_handleClient {E : Env} {f f' : Nat} (hf : f ≤ f') : Le (handleClient E f) (handleClient E f') :=
  .andThen (.ignoreErr (.andThen (le_recvFrom hf _) fun _ => .ignoreErr (le_sendTo hf _))) fun _ => .ignoreErr (le_close hf)

theorem le_echoClient {E : Env} {f f' : Nat} (hf : f ≤ f') (msg : Bytes) (len : Bytes → Nat) : Le (echoClient E msg len f) (echoClient E msg len f') :=
  .andThen (le_sendTo hf _) fun _ => le_readEnd hf _ hf

namespace Sample

/-- The client: the answer to its SYN, the acknowledgement of its message, the echo, the FIN. -/
def echoA : List NetEvent := [arr (dg .state 7 100 1 [] 0), arr (dg .state 7 100 2), arr (dg .data 7 100 2 [4, 5] 0), arr (dg .fin 7 101 3 [] 0)]
/-- The server, after `accept`: the message, and the acknowledgements of the echo and of the FIN. -/
def echoB : List NetEvent := [arr (dg .data 8 2 100 [4, 5] 0), arr (dg .state 8 3 100), arr (dg .state 8 3 101)]

/-- Two bytes there and back; the client reads them one at a time. -/
example : ∃ a' b' F, (∀ fuel, F ≤ fuel → echoClient (senv echoA []) [4, 5] (fun _ => 1) fuel (client (senv echoA [])) = (.ok [4, 5], a') ∧
    handleClient (senv echoB []) fuel (readerStart echoB []) = (.ok (), b')) ∧ Over (senv echoA []) a' ∧ Over (senv echoB []) b' := by
  have hr : Ready (client (senv echoA [])).s (readerStart echoB []).s := ⟨by decide +kernel, by decide +kernel, by decide +kernel⟩
  have hr' : Ready (readerStart echoB []).s (client (senv echoA [])).s := ⟨by decide +kernel, by decide +kernel, by decide +kernel⟩
  have hl : Linked (client (senv echoA [])) (readerStart echoB []) :=
    ⟨by decide +kernel, by decide +kernel, by decide +kernel, by decide +kernel, by decide +kernel, by decide +kernel, by decide +kernel, by decide +kernel⟩
  obtain ⟨a', b', F, h1, h2, h3, _⟩ := C78_partial (A := senv echoA []) (B := senv echoB []) (msg := [4, 5]) (len := fun _ => 1) hl hr hr' (fun n => by simp [senv, env]) (fun n => by simp [senv, env])
    (by decide) (by decide) (by decide +kernel) (by decide +kernel) (fun _ => by decide)
    (arrives_of 8 (fun f h => le_echoClient h _ _) (by decide +kernel) (by decide +kernel)) (arrives_of 8 (fun f h => le_handleClient h) (by decide +kernel) (by decide +kernel))
  exact ⟨a', b', F, h1, h2, h3⟩

/-- The environment of a server whose first number is `r`, and of its client. -/
def farEnv (net : List NetEvent) (r : U16) : Env := { lenv net with rand := fun k => ([7, r] : List U16).getD k 0 }
/-- The client: the acknowledgement of its message, nothing in time, the FIN. -/
def farA : List NetEvent := [arr (dg .state 7 40000 1 [] 0), arr (dg .state 7 40000 2), .fail .timedOut, arr (dg .fin 7 40001 3 [] 0)]
/-- The server: the message, three requests to send again, the acknowledgement of the FIN. -/
def farB : List NetEvent := [arr (dg .data 8 2 40000 [9] 0), arr (dg .state 8 3 40000 [] 0), arr (dg .state 8 3 40000 [] 0), arr (dg .state 8 3 40000 [] 0), arr (dg .state 8 3 40001)]
/-- The server accepts. -/
def farServer : World := acceptWorld (accept (farEnv farB 40000) 1 (arr theSyn) (.ok here))

theorem farEnv_none {net : List NetEvent} {r : U16} {x K p : Nat} (hK : net.length ≤ x + K) (hp : K ≤ p) : ¬ Comes ((farEnv net r).net (x + p)) := lenv_none hK hp

end Sample

open Sample in
/-- The first number of the server is 40000: `send_to` returns without sending the echo.  The client times out once and asks for the *next* packet, which acknowledges the
echo that was never sent.  Both programs end without an error and the connection is closed properly, but the client has got no bytes.  All datagrams arrive, in
order. -/
theorem C78_counterexample : ∃ (A B : Env) (a b : World), Linked a b ∧ Ready a.s b.s ∧ Ready b.s a.s ∧ (∀ n, A.snd n = .ok) ∧ (∀ n, B.snd n = .ok) ∧
    Lossy A B a b (fun fuel => echoClient A [9] (fun _ => 5) fuel) (fun fuel => handleClient B fuel) ∧
    (echoClient A [9] (fun _ => 5) 10 a).1 = .ok [] ∧ (handleClient B 10 b).1 = .ok () ∧
    (sentSince a (echoClient A [9] (fun _ => 5) 10 a).2).map (NetEvent.dgram · peer) = (List.range 5).map (fun i => B.net (b.nNet + i)) ∧
    (sentSince b (handleClient B 10 b).2).map (NetEvent.dgram · peer) = [A.net a.nNet, A.net (a.nNet + 2)] := by
  have eA : (client (farEnv farA 40000)).nNet = 1 := by decide +kernel
  have eB : farServer.nNet = 0 := by decide +kernel
  refine ⟨farEnv farA 40000, farEnv farB 40000, client (farEnv farA 40000), farServer, ?_, ?_, ?_, fun n => by simp [farEnv, lenv, senv, env], fun n => by simp [farEnv, lenv, senv, env], ?_,
    by decide +kernel, by decide +kernel, by decide +kernel, by decide +kernel⟩
  · exact ⟨by decide +kernel, by decide +kernel, by decide +kernel, by decide +kernel, by decide +kernel, by decide +kernel, by decide +kernel, by decide +kernel⟩
  · exact ⟨by decide +kernel, by decide +kernel, by decide +kernel⟩
  · exact ⟨by decide +kernel, by decide +kernel, by decide +kernel⟩
  · refine ⟨fun p => if p = 0 then 1 else p, fun q => if q = 0 then 0 else q + 1, fun p => if p = 0 then 0 else 1, fun q => q, fun p q => ?_, ?_, ?_⟩
    · show p < (if q = 0 then 0 else q + 1) ↔ (if p = 0 then 1 else p) ≤ q
      split <;> split <;> omega
    · refine channel_of 3 10 (fun p hp => ?_) (fun p p' h => ?_) (by decide +kernel)
      · exact farEnv_none (by rw [eA]; decide) hp
      · show (if p = 0 then 0 else 1) ≤ (if p' = 0 then 0 else 1)
        split <;> split <;> omega
    · refine channel_of 5 10 (fun p hp => ?_) (fun p p' h => h) (by decide +kernel)
      exact farEnv_none (by rw [eB]; decide) hp

end Utp
