import Verif.Lemmas.Shutdown
import Verif.Props.Lossless
/-!
# A lossless shutdown completes
-/

namespace Utp
open M

section
variable {A B : Env} {a b : World}

theorem tries_pos {s : Socket} (h : s.maxRetries ≠ 0) : 0 < s.maxRetries.toNat := by
  have : s.maxRetries.toNat ≠ 0 := fun e => h (BitVec.eq_of_toNat_eq e)
  omega

/-- The FIN of `close` arrives. -/
theorem fin_arrives {w1 : World} {p : Packet} {dst : Addr} (hl : w1.log = a.log ++ [.send dst p.bytes true]) (hc : ∀ fuel, close A (fuel + 1) a = closeLoop A (fuel + 1) w1)
    (ha : Arrives (fun fuel => close A fuel) a B b) : ∃ src, B.net b.nNet = .dgram p.bytes src := by
  obtain ⟨t, ht⟩ := grows_closeLoop (E := A) 1 w1
  exact ha 1 0 p.bytes (by
    show (datagramsOf ((close A (0 + 1) a).2.log.drop _))[0]? = _
    rw [hc, ← ht, hl, List.append_assoc, List.drop_left]
    rfl)

/-- **C68.**  Over a network that loses nothing, closing a connection with nothing outstanding succeeds: `close` returns Ok on one side, the other side's `recv_from`
returns 0 bytes, each side sends one datagram, and the connection is over on both sides. -/
theorem C68_close {len : Nat} (h : Linked a b) (hr : Ready a.s b.s) (hb : b.s.sendWindow = []) (hA : A.snd a.nSnd = .ok) (hB : B.snd b.nSnd = .ok)
    (ha : Arrives (fun fuel => close A fuel) a B b) (hb' : Arrives (fun fuel => recvFrom B fuel len) b A a) :
    ∃ a' b' src, (∀ fuel, close A (fuel + 2) a = (.ok (), a') ∧ recvFrom B (fuel + 2) len b = (.ok ([], src), b')) ∧
      Over A a' ∧ Over B b' ∧ (sentSince a a').length = 1 ∧ (sentSince b b').length = 1 := by
  obtain ⟨w1, p, hp, h1, h2, ⟨dst, h3⟩, _, h4⟩ := close_settled (E := A) h.aOpen ⟨h.aRead.1, h.aRead.2, hr.sent.1⟩ hA
  obtain ⟨src, hn⟩ := fin_arrives h3 h4 ha
  rw [h.toB] at hp
  obtain ⟨b', g1, g2, g3, r, t, g4, g5⟩ := recv_closing (.inl h.bOpen) ⟨h.bRead.1, h.bRead.2, hb⟩ (tries_pos h.bTries) hn hp hr.next hB
  have g6 := recvFrom_closing h.bOpen ⟨h.bRead.1, h.bRead.2, hb⟩ g1 g2
  obtain ⟨src', hn'⟩ := hb' 2 0 r.bytes (by
    show (datagramsOf ((recvFrom B (0 + 2) len b).2.log.drop _))[0]? = _
    rw [g6, g5, List.drop_left]
    rfl)
  rw [h.toA] at g4
  obtain ⟨a', k1, k2, k3, t', k4⟩ := recv_finAck (E := A) (w := w1) (q := b.s.seqNr) (by rw [h1]) (by rw [h1]; exact ⟨h.aRead.1, h.aRead.2, hr.sent.1⟩) (by rw [h1]; exact tries_pos h.aTries)
    (by rw [h2]; exact hn') (by rw [h1]; exact g4)
  refine ⟨a', b', _, fun fuel => ⟨?_, g6 fuel len⟩, over_of k2 k3, over_of g2 g3, ?_, ?_⟩
  · rw [h4, closeLoop_one (by rw [h1]) k1 k2]
  · unfold sentSince
    rw [k4, h3, List.append_assoc, List.drop_left]
    rfl
  · unfold sentSince
    rw [g5, List.drop_left]
    rfl

/-- **C68.**  The same if both sides close at once, without either having seen the FIN of the other. -/
theorem C68_both (h : Linked a b) (hr : Ready a.s b.s) (hr' : Ready b.s a.s) (hA : ∀ n, A.snd n = .ok) (hB : ∀ n, B.snd n = .ok)
    (ha : Arrives (fun fuel => close A fuel) a B b) (hb : Arrives (fun fuel => close B fuel) b A a) :
    ∃ a' b', (∀ fuel, close A (fuel + 2) a = (.ok (), a') ∧ close B (fuel + 2) b = (.ok (), b')) ∧ Over A a' ∧ Over B b' ∧
      (sentSince a a').length = 2 ∧ (sentSince b b').length = 2 := by
  obtain ⟨w1, p, hp, h1, h2, ⟨dst, h3⟩, hs1, h4⟩ := close_settled (E := A) h.aOpen ⟨h.aRead.1, h.aRead.2, hr.sent.1⟩ (hA _)
  obtain ⟨w2, q, hq, g1, g2, ⟨dst', g3⟩, hs2, g4⟩ := close_settled (E := B) h.bOpen ⟨h.bRead.1, h.bRead.2, hr'.sent.1⟩ (hB _)
  obtain ⟨src, hn⟩ := fin_arrives h3 h4 ha
  obtain ⟨src', hn'⟩ := fin_arrives g3 g4 hb
  rw [h.toB] at hp
  rw [h.toA] at hq
  obtain ⟨b', k1, k2, k3, r, t, k4, k5⟩ := recv_closing (E := B) (w := w2) (q := a.s.seqNr) (.inr (by rw [g1])) (by rw [g1]; exact ⟨h.bRead.1, h.bRead.2, hr'.sent.1⟩)
    (by rw [g1]; exact tries_pos h.bTries) (by rw [g2]; exact hn) (by rw [g1]; exact hp) (by rw [g1]; exact hr.next) (hB _)
  obtain ⟨a', m1, m2, m3, r', t', m4, m5⟩ := recv_closing (E := A) (w := w1) (q := b.s.seqNr) (.inr (by rw [h1])) (by rw [h1]; exact ⟨h.aRead.1, h.aRead.2, hr.sent.1⟩)
    (by rw [h1]; exact tries_pos h.aTries) (by rw [h2]; exact hn') (by rw [h1]; exact hq) (by rw [h1]; exact hr'.next) (hA _)
  refine ⟨a', b', fun fuel => ⟨?_, ?_⟩, over_of m2 m3, over_of k2 k3, ?_, ?_⟩
  · rw [h4, closeLoop_one (by rw [h1]) m1 m2]
  · rw [g4, closeLoop_one (by rw [g1]) k1 k2]
  · unfold sentSince
    rw [m5, h3, List.append_assoc, List.drop_left]
    rfl
  · unfold sentSince
    rw [k5, g3, List.append_assoc, List.drop_left]
    rfl

/-- **C68.**  The whole life of a connection over a network that loses nothing: `connect` and `accept`, a conversation, and then `close` on either side.

Partial: as `C67_connection_partial`. -/
theorem C68_session_partial {n fuel fuel' : Nat} {la la' addr src src' : Addr} {d : Bytes} {reply : Bytes} {legs : List Leg} (hA : ∀ n, A.snd n = .ok)
    (hB : ∀ n, B.snd n = .ok) (hn : n < 5) (hto : ∀ i, i < n → (A.net i).isTimeout) (hsyn : IsSyn 1 (sequentialIdentifiers (A.rand 0)).1 d)
    (ha : accept B fuel' (.dgram d src) (.ok la') = .made (.ok ()) b src) (hl : b.log = [.send src reply true]) (hr : A.net n = .dgram reply src')
    (h0 : b.s.seqNr ≠ 0) (hlen : ∀ l ∈ legs, 0 < l.len)
    (hfit : ∀ l ∈ legs, ∀ bs ∈ l.batches, (bs.map packetsOf).sum + (if l.first then 1 else b.s.seqNr.toNat) ≤ 32769) :
    ∃ a, connect A fuel (.ok [addr]) (.ok la) = .ok (.ok (), a) ∧ (Reliable A B a b legs → ∃ a' b', Converse A B a b legs a' b' ∧
      (∀ len, Arrives (fun fuel => close A fuel) a' B b' → Arrives (fun fuel => recvFrom B fuel len) b' A a' →
        ∃ a'' b'' src, (∀ fuel, close A (fuel + 2) a' = (.ok (), a'') ∧ recvFrom B (fuel + 2) len b' = (.ok ([], src), b'')) ∧ Over A a'' ∧ Over B b'') ∧
      (∀ len, Arrives (fun fuel => close B fuel) b' A a' → Arrives (fun fuel => recvFrom A fuel len) a' B b' →
        ∃ a'' b'' src, (∀ fuel, close B (fuel + 2) b' = (.ok (), b'') ∧ recvFrom A (fuel + 2) len a' = (.ok ([], src), a'')) ∧ Over A a'' ∧ Over B b'')) := by
  obtain ⟨a, h1, h2, h3, h4, h5⟩ := C67_handshake (fuel := fuel) (la := la) (addr := addr) hn hto (fun i _ => hA i) hsyn ha hl hr
  refine ⟨a, h1, fun hrel => ?_⟩
  obtain ⟨a', b', hc, g1, g2, g3⟩ := C67_conversation_partial hA hB legs a b h2 h3 (h5 h0).1 (fun l hm => ⟨hlen l hm, fun bs hbs => by
    have := hfit l hm bs hbs
    have hlb := (h5 h0).2
    split <;> simp_all <;> omega⟩) hrel
  refine ⟨a', b', hc, fun len k1 k2 => ?_, fun len k1 k2 => ?_⟩
  · obtain ⟨a'', b'', src, m1, m2, m3, _⟩ := C68_close g1 g2 g3.sent.1 (hA _) (hB _) k1 k2
    exact ⟨a'', b'', src, m1, m2, m3⟩
  · obtain ⟨b'', a'', src, m1, m2, m3, _⟩ := C68_close g1.symm g3 g2.sent.1 (hB _) (hA _) k1 k2
    exact ⟨a'', b'', src, m1, m3, m2⟩

end

namespace Sample

/-- The answer to the SYN, then the acknowledgement of the FIN. -/
def endA : List NetEvent := [arr (dg .state 7 100 1 [] 0), arr (dg .state 7 100 2)]
/-- The FIN. -/
def endB : List NetEvent := [arr (dg .fin 8 2 100 [] 0)]

/-- The connecting side closes. -/
example : ∃ a' b' src, (∀ fuel, close (senv endA []) (fuel + 2) (client (senv endA [])) = (.ok (), a') ∧
    recvFrom (senv endB []) (fuel + 2) 10 (readerStart endB []) = (.ok ([], src), b')) ∧ Over (senv endA []) a' ∧ Over (senv endB []) b' := by
  have hr : Ready (client (senv endA [])).s (readerStart endB []).s := ⟨by decide +kernel, by decide +kernel, by decide +kernel⟩
  have hl : Linked (client (senv endA [])) (readerStart endB []) :=
    ⟨by decide +kernel, by decide +kernel, by decide +kernel, by decide +kernel, by decide +kernel, by decide +kernel, by decide +kernel, by decide +kernel⟩
  have h1 : ((fun fuel => close (senv endA []) fuel) 5 (client (senv endA []))).1 ≠ .pending := by decide +kernel
  have h2 : ((fun fuel => recvFrom (senv endB []) fuel 10) 5 (readerStart endB [])).1 ≠ .pending := by decide +kernel
  have ha : Arrives (fun fuel => close (senv endA []) fuel) (client (senv endA [])) (senv endB []) (readerStart endB []) :=
    arrives_of 5 (fun f h => le_close h) h1 (by decide +kernel)
  have hb : Arrives (fun fuel => recvFrom (senv endB []) fuel 10) (readerStart endB []) (senv endA []) (client (senv endA [])) :=
    arrives_of 5 (fun f h => le_recvFrom h 10) h2 (by decide +kernel)
  have hw : (readerStart endB []).s.sendWindow = [] := by decide +kernel
  obtain ⟨a', b', src, h, h', h'', _⟩ := C68_close hl hr hw (by simp [senv, env]) (by simp [senv, env]) ha hb
  exact ⟨a', b', src, h, h', h''⟩

/-- The answer to the SYN, then the FIN of the peer and its answer to ours. -/
def crossA : List NetEvent := [arr (dg .state 7 100 1 [] 0), arr (dg .fin 7 100 1 [] 0), arr (dg .state 7 100 2)]
/-- The FIN of the peer and its answer to ours. -/
def crossB : List NetEvent := [arr (dg .fin 8 2 100 [] 0), arr (dg .state 8 2 100)]

/-- Both sides close. -/
example : ∃ a' b', (∀ fuel, close (senv crossA []) (fuel + 2) (client (senv crossA [])) = (.ok (), a') ∧
    close (senv crossB []) (fuel + 2) (readerStart crossB []) = (.ok (), b')) ∧ Over (senv crossA []) a' ∧ Over (senv crossB []) b' := by
  have hr : Ready (client (senv crossA [])).s (readerStart crossB []).s := ⟨by decide +kernel, by decide +kernel, by decide +kernel⟩
  have hr' : Ready (readerStart crossB []).s (client (senv crossA [])).s := ⟨by decide +kernel, by decide +kernel, by decide +kernel⟩
  have hl : Linked (client (senv crossA [])) (readerStart crossB []) :=
    ⟨by decide +kernel, by decide +kernel, by decide +kernel, by decide +kernel, by decide +kernel, by decide +kernel, by decide +kernel, by decide +kernel⟩
  have h1 : ((fun fuel => close (senv crossA []) fuel) 5 (client (senv crossA []))).1 ≠ .pending := by decide +kernel
  have h2 : ((fun fuel => close (senv crossB []) fuel) 5 (readerStart crossB [])).1 ≠ .pending := by decide +kernel
  have ha : Arrives (fun fuel => close (senv crossA []) fuel) (client (senv crossA [])) (senv crossB []) (readerStart crossB []) :=
    arrives_of 5 (fun f h => le_close h) h1 (by decide +kernel)
  have hb : Arrives (fun fuel => close (senv crossB []) fuel) (readerStart crossB []) (senv crossA []) (client (senv crossA [])) :=
    arrives_of 5 (fun f h => le_close h) h2 (by decide +kernel)
  obtain ⟨a', b', h, h', h'', _⟩ := C68_both hl hr hr' (fun n => by simp [senv, env]) (fun n => by simp [senv, env]) ha hb
  exact ⟨a', b', h, h', h''⟩

end Sample

end Utp
