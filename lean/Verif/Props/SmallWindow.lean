import Verif.Lemmas.SmallWindow
import Verif.Props.PeerTimes
/-!
# C116: a small window of the peer is not respected
-/

namespace Utp
open M

variable {E : Env} {net : Nat → NetEvent}

/-- C116: take two worlds that differ only in the times the peer wrote and in a window of the peer of at most 2800 bytes, and networks
that deliver the same datagrams but for the times and but for windows that are both at most 2800 bytes.  Then all operations return
the same, and the worlds still differ in nothing else: a window of zero, or any other small one, is treated as one of 2800 bytes. -/
theorem C116_runs (hN : ∀ k, RoomEvent (E.net k) (net k)) (fuel : Nat) : ∀ (ops : List Op) {w w' : World}, RoomWorld w w' →
    results (E.withNet net) fuel ops w' = results E fuel ops w ∧ RoomWorld (runs E fuel ops w) (runs (E.withNet net) fuel ops w')
  | [], _, _, hw => ⟨rfl, hw⟩
  | op :: ops, _, _, hw => by
    obtain ⟨h1, h2⟩ := room_runOp hN fuel op _ _ hw
    obtain ⟨h3, h4⟩ := C116_runs hN fuel ops h2
    refine ⟨?_, h4⟩
    simp only [results]
    rw [h3, h1.eq]

theorem room_world_refl (w : World) : RoomWorld w w := by
  have hs : RoomSocket w.s w.s :=
    .mk (d := w.s.theirDelay) (r := w.s.remoteWnd) (List.forall₂_same.2 fun _ _ => ⟨⟨rfl, fun _ _ => rfl⟩, rfl⟩) (List.forall₂_same.2 fun _ _ => AgreeBut.refl _) (List.forall₂_same.2 fun _ _ => AgreeBut.refl _) rfl
  refine ⟨hs, rfl, rfl, rfl, rfl, List.forall₂_same.2 fun a _ => ?_⟩
  cases a with
  | send a b ok => exact .send a ok (AgreeBut.refl _)
  | wait t => exact .wait t

/-- C116 from one world, whatever its state. -/
theorem C116_window (hN : ∀ k, RoomEvent (E.net k) (net k)) (fuel : Nat) (ops : List Op) (w : World) :
    results (E.withNet net) fuel ops w = results E fuel ops w ∧ RoomWorld (runs E fuel ops w) (runs (E.withNet net) fuel ops w) :=
  C116_runs hN fuel ops (room_world_refl w)

/-- C116 for connections made by `connect`. -/
theorem C116_connect (hN : ∀ k, RoomEvent (E.net k) (net k)) (fuel : Nat) (resolved : Except ErrorKind (List Addr)) (wild : Except ErrorKind Addr)
    {r : Res Unit} {w : World} (h : connect E fuel resolved wild = .ok (r, w)) :
    ∃ w', connect (E.withNet net) fuel resolved wild = .ok (r, w') ∧ RoomWorld w w' := by
  unfold connect at h ⊢
  split at h
  · cases h
  · split at h
    · cases h
    · rename_i a _ _ l
      obtain ⟨h1, h2⟩ := room_connectM hN fuel a _ _ (room_world_refl (freshWorld E l { v6 := a.v6, id := 0 }))
      simp only [Except.ok.injEq] at h
      rw [h] at h1 h2
      exact ⟨_, congrArg Except.ok (Prod.ext (show (connectM (E.withNet net) fuel a (freshWorld (E.withNet net) l { v6 := a.v6, id := 0 })).1 = r from h1.eq) (Eq.refl _)), h2⟩

/-- C116 for connections made by `accept`. -/
theorem C116_accept (hN : ∀ k, RoomEvent (E.net k) (net k)) (fuel : Nat) {ev ev' : NetEvent} (he : RoomEvent ev ev')
    (bound : Except ErrorKind Addr) {r : Res Unit} {w : World} {src : Addr} (h : accept E fuel ev bound = .made r w src) :
    ∃ w', accept (E.withNet net) fuel ev' bound = .made r w' src ∧ RoomWorld w w' := by
  cases he with
  | fail k => cases h
  | never => cases h
  | @dgram b b' a hb =>
    unfold accept at h ⊢
    simp only at h ⊢
    have hp := RoomBytes.tryFrom (RoomBytes.take hb BUF_SIZE)
    generalize Packet.tryFrom (b.take BUF_SIZE) = x at hp h
    generalize Packet.tryFrom (b'.take BUF_SIZE) = x' at hp
    cases hp with
    | none => cases h
    | some hp =>
      cases hp with
      | error e => cases h
      | ok hp =>
        simp only at h ⊢
        rw [RoomPkt.getType hp]
        split at h
        · cases h
        · split at h
          · cases h
          · rename_i hsyn
            split at h
            · cases h
            · rename_i l
              obtain ⟨h1, h2⟩ := room_acceptM hN fuel hp a _ _ (room_world_refl (freshWorld E l a))
              simp only [AcceptRes.made.injEq] at h
              obtain ⟨e3, e4, rfl⟩ := h
              rw [e3] at h1
              rw [e4] at h2
              rw [if_neg hsyn]
              exact ⟨_, congrArg (fun r => AcceptRes.made r _ a) (show (acceptM (E.withNet net) fuel _ a (freshWorld (E.withNet net) l a)).1 = r from h1.eq), h2⟩

namespace Sample

/-- The peer reports this window in its datagrams. -/
def rewindow (x y : U8) : NetEvent → NetEvent
  | .dgram b a => .dgram (b.take 12 ++ ((b.drop 12).take 4).zipWith (fun _ y => y) [0, 0, x, y] ++ b.drop 16) a
  | e => e

theorem rewindow_hints (x y : U8) (b : Bytes) : SameButHints b (b.take 12 ++ ((b.drop 12).take 4).zipWith (fun _ y => y) [0, 0, x, y] ++ b.drop 16) := by
  refine ⟨by simp; omega, fun i hi => ?_⟩
  rcases hi with hi | hi
  · rw [List.append_assoc]
    by_cases hl : i < b.length
    · rw [List.getElem?_append_left (by simp; omega), List.getElem?_take_of_lt (by omega)]
    · rw [List.getElem?_eq_none (by simp; omega), List.getElem?_eq_none (by omega)]
  · by_cases hl : 16 ≤ b.length
    · rw [List.getElem?_append_right (by simp; omega)]
      simp only [List.length_append, List.length_take, List.length_zipWith, List.length_drop, List.getElem?_drop, List.length_cons, List.length_nil]
      congr 1
      omega
    · rw [List.getElem?_eq_none (by simp; omega), List.getElem?_eq_none (by omega)]

/-- The peer reports a window of zero; packets are sent and then acknowledged. -/
def fullEnv : Env := env ([arr (dg .data 6 2 99 [1, 2] 0)] ++ List.replicate 3 (arr (dg .state 6 3 100 [] 0)))

/-- The same with windows of 2800 bytes. -/
def fullEnv' : Env := fullEnv.withNet fun k => rewindow 10 240 (fullEnv.net k)

/-- The same with windows of 2801 bytes. -/
def fullerEnv : Env := fullEnv.withNet fun k => rewindow 10 241 (fullEnv.net k)

/-- A socket with a congestion window that would allow for many packets. -/
def eager : World := { server fullEnv with s := { (server fullEnv).s with cwnd := 100000 } }

/-- The lengths of what is sent, with 0 for a wait. -/
def outline (w : World) : List Nat := w.log.map fun a => match a with | .wait _ => 0 | .send _ b _ => b.length

end Sample

section
open Sample

/-- The hypothesis of the theorems above holds here. -/
example : ∀ k, RoomEvent (fullEnv.net k) (rewindow 10 240 (fullEnv.net k)) := by
  intro k
  match k with
  | 0 => exact .dgram _ ⟨rewindow_hints _ _ _, fun _ => by decide +kernel⟩
  | 1 => exact .dgram _ ⟨rewindow_hints _ _ _, fun _ => by decide +kernel⟩
  | 2 => exact .dgram _ ⟨rewindow_hints _ _ _, fun _ => by decide +kernel⟩
  | 3 => exact .dgram _ ⟨rewindow_hints _ _ _, fun _ => by decide +kernel⟩
  | _ + 4 => exact .never

/-- With a window of zero as with one of 2800 bytes two packets are sent before anything is waited for (0 in the lists), with one of
2801 bytes three: no greater bound than 2800 would do. -/
example : outline (runs fullEnv 20 [.recvFrom 10, .sendTo (List.replicate 4200 7)] eager) = [20, 0, 20, 1400, 1400, 0, 1400, 0, 0, 0] ∧
    outline (runs fullEnv' 20 [.recvFrom 10, .sendTo (List.replicate 4200 7)] eager) = [20, 0, 20, 1400, 1400, 0, 1400, 0, 0, 0] ∧
    outline (runs fullerEnv 20 [.recvFrom 10, .sendTo (List.replicate 4200 7)] eager) = [20, 0, 20, 1400, 1400, 1400, 0, 80] := by decide +kernel

end

end Utp
