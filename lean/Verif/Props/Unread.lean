import Verif.Lemmas.Unread
import Verif.Props.OtherExts
/-!
# C118: the parts of a datagram that are looked at
-/

namespace Utp
open M

variable {E : Env} {net : Nat → NetEvent}

theorem UnreadWorld.seen {w w' : World} (h : UnreadWorld w w') : SeenWorld w w' := by
  obtain ⟨hi⟩ := h
  exact ⟨⟨hi, List.forall₂_same.2 fun _ _ => rfl, List.forall₂_same.2 fun _ _ => rfl⟩, rfl, rfl, rfl, rfl, List.forall₂_same.2 fun _ _ => rfl⟩

theorem SeenWorld.unread {w w' : World} (h : SeenWorld w w') : UnreadWorld w w' := by
  obtain ⟨s, _, _, _, _, l⟩ := w
  obtain ⟨s', _, _, _, _, l'⟩ := w'
  obtain ⟨hs, h1, h2, h3, h4, hl⟩ := h
  simp only at hs h1 h2 h3 h4 hl
  subst h1 h2 h3 h4
  rw [List.forall₂_eq_eq_eq] at hl
  subst hl
  obtain ⟨hi, ho, hu⟩ := hs
  have ho' := forall₂_eq ho
  have hu' := forall₂_eq hu
  subst ho' hu'
  exact ⟨hi⟩

theorem seen_refl (w : World) : SeenWorld w w := UnreadWorld.seen (UnreadWorld.mk (w := w) (i := w.s.incoming) (List.forall₂_same.2 fun _ _ => ⟨.inl rfl, rfl⟩))

/-- C118: take networks that deliver the same datagrams but for what is not looked at: the timestamp difference, extensions other than
selective acknowledgements, in all but State packets also the acknowledgement number and all extensions, in all but Data packets also
the payload.  Then all operations return the same, and the worlds differ in nothing but these parts of the packets that wait to be
read: the same datagrams are sent, byte for byte, and the same waits are made. -/
theorem C118_runs (hN : ∀ k, UnreadEvent (E.net k) (net k)) (fuel : Nat) : ∀ (ops : List Op) {w w' : World}, UnreadWorld w w' →
    results (E.withNet net) fuel ops w' = results E fuel ops w ∧ UnreadWorld (runs E fuel ops w) (runs (E.withNet net) fuel ops w')
  | [], _, _, hw => ⟨rfl, hw⟩
  | op :: ops, _, _, hw => by
    obtain ⟨h1, h2⟩ := seen_runOp hN fuel op _ _ hw.seen
    obtain ⟨h3, h4⟩ := C118_runs hN fuel ops h2.unread
    refine ⟨?_, h4⟩
    simp only [results]
    rw [h3, h1.eq]

/-- C118 from one world: the results and everything sent are the same. -/
theorem C118_unread (hN : ∀ k, UnreadEvent (E.net k) (net k)) (fuel : Nat) (ops : List Op) (w : World) :
    results (E.withNet net) fuel ops w = results E fuel ops w ∧ (runs (E.withNet net) fuel ops w).log = (runs E fuel ops w).log := by
  obtain ⟨h1, h2⟩ := C118_runs hN fuel ops (seen_refl w).unread
  refine ⟨h1, ?_⟩
  generalize runs (E.withNet net) fuel ops w = v at h2
  cases h2
  rfl

/-- C118 for connections made by `connect`. -/
theorem C118_connect (hN : ∀ k, UnreadEvent (E.net k) (net k)) (fuel : Nat) (resolved : Except ErrorKind (List Addr)) (wild : Except ErrorKind Addr)
    {r : Res Unit} {w : World} (h : connect E fuel resolved wild = .ok (r, w)) :
    ∃ w', connect (E.withNet net) fuel resolved wild = .ok (r, w') ∧ UnreadWorld w w' := by
  unfold connect at h ⊢
  split at h
  · cases h
  · split at h
    · cases h
    · rename_i a _ _ l
      obtain ⟨h1, h2⟩ := seen_connectM hN fuel a _ _ (seen_refl (freshWorld E l { v6 := a.v6, id := 0 }))
      simp only [Except.ok.injEq] at h
      rw [h] at h1 h2
      exact ⟨_, congrArg Except.ok (Prod.ext (show (connectM (E.withNet net) fuel a (freshWorld (E.withNet net) l { v6 := a.v6, id := 0 })).1 = r from h1.eq) (Eq.refl _)), h2.unread⟩

/-- C118 for connections made by `accept`. -/
theorem C118_accept (hN : ∀ k, UnreadEvent (E.net k) (net k)) (fuel : Nat) {ev ev' : NetEvent} (he : UnreadEvent ev ev')
    (bound : Except ErrorKind Addr) {r : Res Unit} {w : World} {src : Addr} (h : accept E fuel ev bound = .made r w src) :
    ∃ w', accept (E.withNet net) fuel ev' bound = .made r w' src ∧ UnreadWorld w w' := by
  have key : ∀ b a, ev = .dgram b a → ∃ b', ev' = .dgram b' a ∧ UnreadBytes (b.take BUF_SIZE) (b'.take BUF_SIZE) := by
    intro b a e
    cases he with
    | same _ => exact ⟨b, e, UnreadBytes.refl _⟩
    | dgram _ hb =>
      cases e
      exact ⟨_, rfl, UnreadBytes.take (.inr hb) (by simp [BUF_SIZE])⟩
  cases ev with
  | fail k => cases h
  | never => cases h
  | dgram b a =>
    obtain ⟨b', rfl, hb'⟩ := key b a rfl
    unfold accept at h ⊢
    simp only at h ⊢
    have hp := UnreadBytes.tryFrom hb'
    generalize Packet.tryFrom (b.take BUF_SIZE) = x at hp h
    generalize Packet.tryFrom (b'.take BUF_SIZE) = x' at hp
    cases hp with
    | none => cases h
    | some hp =>
      cases hp with
      | error e => cases h
      | ok hp =>
        simp only at h ⊢
        rw [SeenPkt.getType hp]
        split at h
        · cases h
        · split at h
          · cases h
          · rename_i hsyn
            split at h
            · cases h
            · rename_i l
              obtain ⟨h1, h2⟩ := seen_acceptM hN fuel hp a _ _ (seen_refl (freshWorld E l a))
              simp only [AcceptRes.made.injEq] at h
              obtain ⟨e3, e4, rfl⟩ := h
              rw [e3] at h1
              rw [e4] at h2
              rw [if_neg hsyn]
              exact ⟨_, congrArg (fun r => AcceptRes.made r _ a) (show (acceptM (E.withNet net) fuel _ a (freshWorld (E.withNet net) l a)).1 = r from h1.eq), h2.unread⟩

namespace Sample
open Spec

/-- Data with another acknowledgement number and timestamp difference and with an extension. -/
def oddData : Datagram := ⟨[1, 1, 0, 6, 0, 0, 0, 0, 9, 9, 9, 9, 0, 16, 0, 0, 0, 2, 0, 100], [⟨1, [255, 255, 255, 255]⟩], [1, 2]⟩

/-- An acknowledgement with a payload. -/
def oddAck : Datagram := ⟨extHeader 2 0 3 100, [], [5, 6, 7]⟩
/-- The same without. -/
def plainAck : Datagram := ⟨extHeader 2 0 3 100, [], []⟩

/-- These arrive. -/
def oddEnv : Env := env [arr extData'.bytes, arr plainAck.bytes]

/-- The others arrive. -/
def oddEnv' : Env := oddEnv.withNet (env [arr oddData.bytes, arr oddAck.bytes]).net

end Sample

section
open Sample Spec

/-- The hypothesis of the theorems above holds here. -/
example : ∀ k, UnreadEvent (oddEnv.net k) (oddEnv'.net k) := by
  have hc : ∀ (l l' : Bytes), (∀ i < 18, i ≠ 1 → i < 8 ∨ 12 ≤ i ∧ i < 18 → l'[i]? = l[i]?) → ∀ i, i ≠ 1 → i < 8 ∨ 12 ≤ i ∧ i < 18 → l'[i]? = l[i]? :=
    fun _ _ hi i h1 h2 => hi i (by omega) h1 h2
  intro k
  match k with
  | 0 =>
    refine .dgram _ ⟨extData', oddData, ⟨by decide, by decide, by decide, by decide, ?_⟩, ⟨by decide, by decide, by decide, by decide, ?_⟩, rfl, rfl, by decide, by decide,
      hc _ _ (by decide), by decide, fun _ => rfl⟩
    · intro e he
      simp [extData'] at he
    · intro e he
      simp only [oddData, List.mem_singleton] at he
      subst he
      exact ⟨by decide, by decide, by decide, by decide⟩
  | 1 =>
    refine .dgram _ ⟨plainAck, oddAck, ⟨by decide, by decide, by decide, by decide, ?_⟩, ⟨by decide, by decide, by decide, by decide, ?_⟩, rfl, rfl, by decide, by decide,
      hc _ _ (by decide), fun _ => ⟨rfl, rfl, rfl⟩, by decide⟩
    · intro e he
      simp [plainAck] at he
    · intro e he
      simp [oddAck] at he
  | _ + 2 => exact .same .never

/-- The acknowledgement number of the data is ignored: what was sent is outstanding until the State packet arrives, whose payload is ignored. -/
example : (results oddEnv' 20 [.sendTo [7], .recvFrom 10, .flush] (server oddEnv)).map bytesOf = [none, some [1, 2], none] ∧
    (runs oddEnv' 20 [.sendTo [7], .recvFrom 10] (server oddEnv)).s.sendWindow.length = 1 ∧
    (runs oddEnv' 20 [.sendTo [7], .recvFrom 10, .flush] (server oddEnv)).s.sendWindow = [] ∧
    sent (runs oddEnv' 20 [.sendTo [7], .recvFrom 10, .flush] (server oddEnv)) = sent (runs oddEnv 20 [.sendTo [7], .recvFrom 10, .flush] (server oddEnv)) := by decide +kernel

end

end Utp
