import Verif.Lemmas.OtherExts
import Verif.Props.PeerTimes
/-!
# C117: extensions other than selective acknowledgements are ignored
-/

namespace Utp
open M

variable {E : Env} {net : Nat → NetEvent}

theorem ExtWorld.tag {w w' : World} (h : ExtWorld w w') : TagWorld w w' := by
  obtain ⟨hi⟩ := h
  exact ⟨⟨hi, List.forall₂_same.2 fun _ _ => rfl, List.forall₂_same.2 fun _ _ => rfl⟩, rfl, rfl, rfl, rfl, List.forall₂_same.2 fun _ _ => rfl⟩

theorem TagWorld.ext {w w' : World} (h : TagWorld w w') : ExtWorld w w' := by
  obtain ⟨s, _, _, _, _, l⟩ := w
  obtain ⟨s', _, _, _, _, l'⟩ := w'
  obtain ⟨hs, h1, h2, h3, h4, hl⟩ := h
  simp only at hs h1 h2 h3 h4 hl
  subst h1 h2 h3 h4
  rw [List.forall₂_eq_eq_eq] at hl
  subst hl
  obtain ⟨hi, ho, hu⟩ := hs
  have ho' := forall₂_eq ho
  have hu' := forall₂_eq hu
  subst ho' hu'
  exact ⟨hi⟩

theorem tag_refl (w : World) : TagWorld w w := ExtWorld.tag (ExtWorld.mk (w := w) (i := w.s.incoming) (List.forall₂_same.2 fun _ _ => .inl rfl))

/-- C117: take two worlds that differ only in extensions of packets waiting to be read, and networks that deliver the same datagrams but
for extensions that are not selective acknowledgements (or for any extensions, in datagrams that are not acknowledgements).  Then all
operations return the same, and the worlds still differ in nothing else: the same datagrams are sent and the same waits are made. -/
theorem C117_runs (hN : ∀ k, ExtEvent (E.net k) (net k)) (fuel : Nat) : ∀ (ops : List Op) {w w' : World}, ExtWorld w w' →
    results (E.withNet net) fuel ops w' = results E fuel ops w ∧ ExtWorld (runs E fuel ops w) (runs (E.withNet net) fuel ops w')
  | [], _, _, hw => ⟨rfl, hw⟩
  | op :: ops, _, _, hw => by
    obtain ⟨h1, h2⟩ := tag_runOp hN fuel op _ _ hw.tag
    obtain ⟨h3, h4⟩ := C117_runs hN fuel ops h2.ext
    refine ⟨?_, h4⟩
    simp only [results]
    rw [h3, h1.eq]

/-- C117 from one world: the results and everything sent are the same. -/
theorem C117_exts (hN : ∀ k, ExtEvent (E.net k) (net k)) (fuel : Nat) (ops : List Op) (w : World) :
    results (E.withNet net) fuel ops w = results E fuel ops w ∧ (runs (E.withNet net) fuel ops w).log = (runs E fuel ops w).log := by
  obtain ⟨h1, h2⟩ := C117_runs hN fuel ops (tag_refl w).ext
  refine ⟨h1, ?_⟩
  generalize runs (E.withNet net) fuel ops w = v at h2
  cases h2
  rfl

/-- C117 for connections made by `connect`. -/
theorem C117_connect (hN : ∀ k, ExtEvent (E.net k) (net k)) (fuel : Nat) (resolved : Except ErrorKind (List Addr)) (wild : Except ErrorKind Addr)
    {r : Res Unit} {w : World} (h : connect E fuel resolved wild = .ok (r, w)) :
    ∃ w', connect (E.withNet net) fuel resolved wild = .ok (r, w') ∧ ExtWorld w w' := by
  unfold connect at h ⊢
  split at h
  · cases h
  · split at h
    · cases h
    · rename_i a _ _ l
      obtain ⟨h1, h2⟩ := tag_connectM hN fuel a _ _ (tag_refl (freshWorld E l { v6 := a.v6, id := 0 }))
      simp only [Except.ok.injEq] at h
      rw [h] at h1 h2
      exact ⟨_, congrArg Except.ok (Prod.ext (show (connectM (E.withNet net) fuel a (freshWorld (E.withNet net) l { v6 := a.v6, id := 0 })).1 = r from h1.eq) (Eq.refl _)), h2.ext⟩

/-- C117 for connections made by `accept`. -/
theorem C117_accept (hN : ∀ k, ExtEvent (E.net k) (net k)) (fuel : Nat) {ev ev' : NetEvent} (he : ExtEvent ev ev')
    (bound : Except ErrorKind Addr) {r : Res Unit} {w : World} {src : Addr} (h : accept E fuel ev bound = .made r w src) :
    ∃ w', accept (E.withNet net) fuel ev' bound = .made r w' src ∧ ExtWorld w w' := by
  have key : ∀ b a, ev = .dgram b a → ∃ b', ev' = .dgram b' a ∧ ExtBytes (b.take BUF_SIZE) (b'.take BUF_SIZE) := by
    intro b a e
    cases he with
    | same _ => exact ⟨b, e, ExtBytes.refl _⟩
    | dgram _ hb =>
      cases e
      exact ⟨_, rfl, ExtBytes.take (.inr hb) (by simp [BUF_SIZE])⟩
  cases ev with
  | fail k => cases h
  | never => cases h
  | dgram b a =>
    obtain ⟨b', rfl, hb'⟩ := key b a rfl
    unfold accept at h ⊢
    simp only at h ⊢
    have hp := ExtBytes.tryFrom hb'
    generalize Packet.tryFrom (b.take BUF_SIZE) = x at hp h
    generalize Packet.tryFrom (b'.take BUF_SIZE) = x' at hp
    cases hp with
    | none => cases h
    | some hp =>
      cases hp with
      | error e => cases h
      | ok hp =>
        simp only at h ⊢
        rw [ExtPkt.getType hp]
        split at h
        · cases h
        · split at h
          · cases h
          · rename_i hsyn
            split at h
            · cases h
            · rename_i l
              obtain ⟨h1, h2⟩ := tag_acceptM hN fuel hp a _ _ (tag_refl (freshWorld E l a))
              simp only [AcceptRes.made.injEq] at h
              obtain ⟨e3, e4, rfl⟩ := h
              rw [e3] at h1
              rw [e4] at h2
              rw [if_neg hsyn]
              exact ⟨_, congrArg (fun r => AcceptRes.made r _ a) (show (acceptM (E.withNet net) fuel _ a (freshWorld (E.withNet net) l a)).1 = r from h1.eq), h2.ext⟩

namespace Sample
open Spec

/-- A header with this type code and announcement. -/
def extHeader (code ext : U8) (seq ack : U8) : Bytes := [code * 16 + 1, ext, 0, 6, 0, 0, 0, 0, 0, 0, 0, 0, 0, 16, 0, 0, 0, seq, 0, ack]

/-- Data with a selective acknowledgement, which is of no use there. -/
def extData : Datagram := ⟨extHeader 0 1 2 99, [⟨1, [255, 255, 255, 255]⟩], [1, 2]⟩
/-- The same data without. -/
def extData' : Datagram := ⟨extHeader 0 0 2 99, [], [1, 2]⟩
/-- An acknowledgement with a selective one between unknown extensions. -/
def extAck : Datagram := ⟨extHeader 2 77 3 99, [⟨77, [1, 2, 3, 4, 5, 6, 7, 8]⟩, ⟨1, [7, 0, 0, 0]⟩, ⟨2, [0, 0, 0, 0]⟩], []⟩
/-- The same without the unknown extensions. -/
def extAck' : Datagram := ⟨extHeader 2 1 3 99, [⟨1, [7, 0, 0, 0]⟩], []⟩

/-- These arrive. -/
def extEnv : Env := env [arr extData.bytes, arr extAck.bytes]
/-- The others arrive. -/
def extEnv' : Env := extEnv.withNet (env [arr extData'.bytes, arr extAck'.bytes]).net

end Sample

section
open Sample Spec
/-- The hypothesis of the theorems above holds here. -/
example : ∀ k, ExtEvent (extEnv.net k) (extEnv'.net k) := by
  have hc : ∀ (l l' : Bytes), l.length = 20 → l'.length = 20 → (∀ i < 20, i ≠ 1 → l'[i]? = l[i]?) → ∀ i, i ≠ 1 → l'[i]? = l[i]? := by
    intro l l' h h' hi i h1
    by_cases hl : i < 20
    · exact hi i hl h1
    · rw [List.getElem?_eq_none (by omega), List.getElem?_eq_none (by omega)]
  intro k
  match k with
  | 0 =>
    refine .dgram _ ⟨extData, extData', ⟨by decide, by decide, by decide, by decide, ?_⟩, ⟨by decide, by decide, by decide, by decide, ?_⟩, rfl, rfl, by decide, by decide,
      hc _ _ rfl rfl (by decide), rfl, by decide⟩
    · intro e he
      simp only [extData, List.mem_singleton] at he
      subst he
      exact ⟨by decide, by decide, by decide, by decide⟩
    · intro e he
      simp [extData'] at he
  | 1 =>
    refine .dgram _ ⟨extAck, extAck', ⟨by decide, by decide, by decide, by decide, ?_⟩, ⟨by decide, by decide, by decide, by decide, ?_⟩, rfl, rfl, by decide, by decide,
      hc _ _ rfl rfl (by decide), rfl, by decide⟩
    · intro e he
      simp only [extAck, List.mem_cons, List.not_mem_nil, or_false] at he
      rcases he with rfl | rfl | rfl <;> exact ⟨by decide, by decide, by decide, by decide⟩
    · intro e he
      simp only [extAck', List.mem_singleton] at he
      subst he
      exact ⟨by decide, by decide, by decide, by decide⟩
  | _ + 2 => exact .same .never

/-- The selective acknowledgement makes the first packet be sent again in either execution. -/
example : (sent (runs extEnv 20 [.recvFrom 10, .sendTo (List.replicate 2000 7), .sendTo [1, 2], .sendTo [3, 4], .recvFrom 10] (server extEnv))).map List.length = [20, 20, 1400, 640, 22, 22, 1400] ∧
    (sent (runs extEnv' 20 [.recvFrom 10, .sendTo (List.replicate 2000 7), .sendTo [1, 2], .sendTo [3, 4], .recvFrom 10] (server extEnv))).map List.length = [20, 20, 1400, 640, 22, 22, 1400] := by
  decide +kernel

end

end Utp
