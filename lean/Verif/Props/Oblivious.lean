import Verif.Lemmas.Oblivious
/-!
# C89: the data carried is copied, never looked at
-/

namespace Utp
open M Spec

variable {ρ σ : U8 → U8 → Prop} {E : Env} {net : Nat → NetEvent}

theorem SameRes.alike {r r' : Res Out} (h : SameRes (fun a a' => AlikeOut ρ (.ok a) (.ok a')) r r') : AlikeOut ρ r r' := by
  cases h with
  | ok h => exact h
  | err e => exact .err e
  | panic => exact .panic
  | pending => exact .pending

theorem SameRes.eq {α : Type} {r r' : Res α} (h : SameRes Eq r r') : r' = r := by
  cases h with
  | ok h => rw [h]
  | _ => rfl

theorem forall₂_eq {α : Type} {l l' : List α} (h : List.Forall₂ Eq l l') : l' = l := by
  induction h with
  | nil => rfl
  | cons h _ ih => rw [h, ih]

/-- **C89.**  Take two worlds that differ only in payloads, and networks that deliver the same datagrams but for the payloads.  Then the same operation, or one
that sends other bytes, ends the same way, and the worlds still differ only in payloads: the same clock readings, the same waits, and datagrams with the same
headers, extensions and lengths to the same destinations at the same moments.  Whatever relation `ρ` holds byte by byte between the payloads received holds
byte by byte between what is read, and whatever relation `σ` holds between the bytes written holds between the payloads sent. -/
theorem C89_op (hN : ∀ k, AlikeEvent ρ (E.net k) (net k)) {w w' : World} (hw : AlikeWorld ρ σ w w') (fuel : Nat) {op op' : Op} (ho : AlikeOp σ op op') :
    AlikeOut ρ (runOp E fuel op w).1 (runOp (E.withNet net) fuel op' w').1 ∧ AlikeWorld ρ σ (runOp E fuel op w).2 (runOp (E.withNet net) fuel op' w').2 := by
  obtain ⟨h1, h2⟩ := peers_runOp hN fuel ho w w' hw
  exact ⟨h1.alike, h2⟩

/-- **C89** for any number of operations. -/
theorem C89_runs (hN : ∀ k, AlikeEvent ρ (E.net k) (net k)) (fuel : Nat) {ops ops' : List Op} (ho : List.Forall₂ (AlikeOp σ) ops ops') :
    ∀ {w w' : World}, AlikeWorld ρ σ w w' →
      List.Forall₂ (AlikeOut ρ) (results E fuel ops w) (results (E.withNet net) fuel ops' w') ∧ AlikeWorld ρ σ (runs E fuel ops w) (runs (E.withNet net) fuel ops' w') := by
  induction ho with
  | nil => exact fun hw => ⟨.nil, hw⟩
  | cons h _ ih =>
    intro w w' hw
    obtain ⟨h1, h2⟩ := C89_op hN hw fuel h
    obtain ⟨h3, h4⟩ := ih h2
    exact ⟨.cons h1 h3, h4⟩

theorem alike_fresh (a b : Addr) : AlikeWorld ρ σ (freshWorld E a b) (freshWorld (E.withNet net) a b) :=
  ⟨⟨.nil, .nil, .nil, .nil⟩, rfl, rfl, rfl, rfl, .nil⟩

/-- **C89** for new sockets made by `bind`. -/
theorem C89_bind (resolved : Except ErrorKind (List Addr)) (bound : Except ErrorKind Addr) {w : World} (h : bind E resolved bound = .ok w) :
    bind (E.withNet net) resolved bound = .ok w ∧ AlikeWorld ρ σ w w := by
  unfold bind at h ⊢
  split at h
  · cases h
  · split at h
    · cases h
    · simp only [Except.ok.injEq] at h
      subst h
      exact ⟨rfl, alike_fresh _ _⟩

/-- **C89** for connections made by `connect`. -/
theorem C89_connect (hN : ∀ k, AlikeEvent ρ (E.net k) (net k)) (fuel : Nat) (resolved : Except ErrorKind (List Addr)) (wild : Except ErrorKind Addr)
    {r : Res Unit} {w : World} (h : connect E fuel resolved wild = .ok (r, w)) :
    ∃ w', connect (E.withNet net) fuel resolved wild = .ok (r, w') ∧ AlikeWorld ρ σ w w' := by
  unfold connect at h ⊢
  split at h
  · cases h
  · split at h
    · cases h
    · rename_i a _ _ l
      obtain ⟨h1, h2⟩ := peers_connectM (σ := σ) hN fuel a _ _ (alike_fresh (net := net) l { v6 := a.v6, id := 0 })
      simp only [Except.ok.injEq] at h
      rw [h] at h1 h2
      exact ⟨_, congrArg Except.ok (Prod.ext (show (connectM (E.withNet net) fuel a (freshWorld (E.withNet net) l { v6 := a.v6, id := 0 })).1 = r from h1.eq) (Eq.refl _)), h2⟩

/-- **C89** for connections made by `accept`; the payload of the SYN plays no role at all. -/
theorem C89_accept {τ : U8 → U8 → Prop} (hN : ∀ k, AlikeEvent ρ (E.net k) (net k)) (fuel : Nat) {ev ev' : NetEvent} (he : AlikeEvent τ ev ev')
    (bound : Except ErrorKind Addr) {r : Res Unit} {w : World} {src : Addr} (h : accept E fuel ev bound = .made r w src) :
    ∃ w', accept (E.withNet net) fuel ev' bound = .made r w' src ∧ AlikeWorld ρ σ w w' := by
  unfold accept at h
  split at h
  · cases h
  · cases h
  · rename_i b a
    have key : ∃ b', ev' = .dgram b' a ∧ Peers.AlikeIn τ (b.take BUF_SIZE) (b'.take BUF_SIZE) := by
      cases he with
      | dgram _ hb => exact ⟨_, rfl, hb.take _⟩
      | junk _ hb => exact ⟨_, rfl, .inr ⟨rfl, not_datagram_take hb _⟩⟩
    obtain ⟨b', rfl, hb⟩ := key
    rcases AlikeIn.tryFrom hb with ⟨p, p', e1, e2, hp⟩ | ⟨e, e1, e2⟩
    · rw [e1] at h
      unfold accept
      simp only at h ⊢
      rw [e2]
      simp only
      rw [← AlikePkt.getType hp]
      split at h
      · cases h
      · split at h
        · cases h
        · rename_i hsyn
          split at h
          · cases h
          · rename_i l
            obtain ⟨h1, h2⟩ := peers_acceptM (σ := σ) hN fuel hp a _ _ (alike_fresh (net := net) l a)
            simp only [AcceptRes.made.injEq] at h
            obtain ⟨e3, e4, rfl⟩ := h
            rw [e3] at h1
            rw [e4] at h2
            rw [if_neg hsyn]
            exact ⟨_, by rw [h1.eq], h2⟩
    · rw [e1] at h
      cases h

/-! ### Consequences -/

/-- Every event is alike to itself if `ρ` relates every payload byte delivered to itself. -/
theorem AlikeEvent.self {ev : NetEvent} (h : ∀ b a, ev = .dgram b a → ∀ d : Datagram, d.Ok → b = d.bytes → ∀ x ∈ d.payload, ρ x x) : AlikeEvent ρ ev ev := by
  cases ev with
  | fail k => exact .fail k
  | never => exact .never
  | dgram b a =>
    by_cases hb : IsDatagram b
    · obtain ⟨d, hd, e⟩ := hb
      exact .dgram a ⟨d, d, hd, rfl, rfl, List.forall₂_same.mpr fun x hx => h b a rfl d hd e x hx, e, e⟩
    · exact .junk a hb

theorem AlikeOp.self (h : ∀ x, σ x x) : ∀ op, AlikeOp σ op op
  | .sendTo _ => .sendTo (List.forall₂_same.mpr fun x _ => h x)
  | .recvFrom len => .recvFrom len
  | .flush => .flush
  | .close => .close
  | .setMaxRetries n => .setMaxRetries n

/-- A reachable world is alike to itself. -/
theorem reach_self (hN : ∀ k, AlikeEvent ρ (E.net k) (E.net k)) (hσ : ∀ x, σ x x) {w : World} (h : Reach E w) : AlikeWorld ρ σ w w := by
  obtain ⟨w0, hm, hr⟩ := h
  have h0 : AlikeWorld ρ σ w0 w0 := by
    cases hm with
    | bind resolved bound h => exact (C89_bind (net := E.net) resolved bound h).2
    | connect fuel resolved wild h _ =>
      obtain ⟨w', h1, h2⟩ := C89_connect (σ := σ) hN fuel resolved wild h
      have : Except.ok (_, w0) = Except.ok (_, w') := h.symm.trans h1
      simp only [Except.ok.injEq, Prod.mk.injEq, true_and] at this
      rwa [← this] at h2
    | accept fuel ev bound h _ =>
      obtain ⟨w', h1, h2⟩ := C89_accept (τ := fun _ _ => True) (σ := σ) hN fuel (AlikeEvent.self fun _ _ _ _ _ _ _ _ => trivial) bound h
      have := h.symm.trans h1
      simp only [AcceptRes.made.injEq, true_and, and_true] at this
      rwa [← this] at h2
  induction hr with
  | refl => exact h0
  | op fuel op _ _ ih => exact (C89_op hN ih fuel (AlikeOp.self hσ op)).2

/-- **C89, origin.**  Every byte read was in the payload of a datagram delivered: a read never returns a byte of a header, of an extension, or of what was written. -/
theorem C89_origin {w w' : World} (hw : Reach E w) {fuel len : Nat} {b : Bytes} {a : Addr} (h : runOp E fuel (.recvFrom len) w = (.ok (.bytes b a), w')) :
    ∀ x ∈ b, ∃ k c src, ∃ d : Datagram, E.net k = .dgram c src ∧ d.Ok ∧ c = d.bytes ∧ x ∈ d.payload := by
  let ρ : U8 → U8 → Prop := fun x _ => ∃ k c src, ∃ d : Datagram, E.net k = .dgram c src ∧ d.Ok ∧ c = d.bytes ∧ x ∈ d.payload
  have hN : ∀ k, AlikeEvent ρ (E.net k) (E.net k) := fun k => AlikeEvent.self fun b a e d hd eb x hx => ⟨k, b, a, d, e, hd, eb, hx⟩
  have h1 := (C89_op hN (reach_self (σ := Eq) hN (fun _ => rfl) hw) fuel (.recvFrom len)).1
  change AlikeOut ρ (runOp E fuel (.recvFrom len) w).1 (runOp E fuel (.recvFrom len) w).1 at h1
  rw [h] at h1
  cases h1 with
  | bytes _ hb =>
    intro x hx
    obtain ⟨i, hi, rfl⟩ := List.getElem_of_mem hx
    exact (List.forall₂_iff_get.mp hb).2 i hi hi

theorem AlikeAct.eq {a a' : Act} (h : AlikeAct Eq a a') : a' = a := by
  cases h with
  | data a ok h =>
    obtain ⟨d, d', _, e1, e2, hp, rfl, rfl⟩ := h
    rw [Datagram.bytes, Datagram.bytes, e1, e2, forall₂_eq hp]
  | control => rfl
  | wait => rfl

theorem AlikeOut.eq {r r' : Res Out} (h : AlikeOut Eq r r') : r' = r := by
  cases h with
  | bytes a hb => rw [forall₂_eq hb]
  | _ => rfl

/-- **C89, received data.**  What the payloads received contain has no influence on what is sent: with other payloads of the same lengths, the same operations send the
same datagrams and wait for the same times, byte for byte. -/
theorem C89_sent (hN : ∀ k, AlikeEvent (fun _ _ => True) (E.net k) (net k)) {w : World} (hw : Reach E w) (fuel : Nat) (ops : List Op) :
    (runs (E.withNet net) fuel ops w).log = (runs E fuel ops w).log := by
  have h0 : AlikeWorld (fun _ _ => True) Eq w w := reach_self (fun k => AlikeEvent.self fun _ _ _ _ _ _ _ _ => trivial) (fun _ => rfl) hw
  have h := (C89_runs hN fuel (List.forall₂_same (l := ops).mpr fun op _ => AlikeOp.self (fun _ => rfl) op) h0).2.log
  have key : ∀ {l l' : List Act}, List.Forall₂ (AlikeAct Eq) l l' → l' = l := by
    intro l l' h
    induction h with
    | nil => rfl
    | cons h _ ih => rw [h.eq, ih]
  exact key h

/-- **C89, written data.**  What is written has no influence on what is read, nor on how any operation ends, but for its length. -/
theorem C89_read {w : World} (hw : Reach E w) (fuel : Nat) {ops ops' : List Op} (ho : List.Forall₂ (AlikeOp fun _ _ => True) ops ops') :
    results E fuel ops' w = results E fuel ops w := by
  have hN : ∀ k, AlikeEvent Eq (E.net k) (E.net k) := fun k => AlikeEvent.self fun _ _ _ _ _ _ _ _ => rfl
  have h := (C89_runs hN fuel ho (reach_self hN (fun _ => trivial) hw)).1
  change List.Forall₂ _ _ (results E fuel ops' w) at h
  have key : ∀ {l l' : List (Res Out)}, List.Forall₂ (AlikeOut Eq) l l' → l' = l := by
    intro l l' h
    induction h with
    | nil => rfl
    | cons h _ ih => rw [h.eq, ih]
  exact key h

/-- The same result with every byte read replaced. -/
def relabel (φ : U8 → U8) : Res Out → Res Out
  | .ok (.bytes b a) => .ok (.bytes (b.map φ) a)
  | r => r

/-- **C89, translation.**  If every payload byte `x` arrives as `φ x`, then every byte read is `φ x` instead of `x`, and nothing else changes. -/
theorem C89_translate (φ : U8 → U8) (hN : ∀ k, AlikeEvent (fun x y => y = φ x) (E.net k) (net k)) {w w' : World}
    (hw : AlikeWorld (fun x y => y = φ x) Eq w w') (fuel : Nat) (ops : List Op) :
    results (E.withNet net) fuel ops w' = (results E fuel ops w).map (relabel φ) ∧ (runs (E.withNet net) fuel ops w').log.length = (runs E fuel ops w).log.length := by
  obtain ⟨h1, h2⟩ := C89_runs hN fuel (List.forall₂_same (l := ops).mpr fun op _ => AlikeOp.self (fun _ => rfl) op) hw
  refine ⟨?_, h2.log.length_eq.symm⟩
  have key : ∀ {l l' : List (Res Out)}, List.Forall₂ (AlikeOut fun x y => y = φ x) l l' → l' = l.map (relabel φ) := by
    intro l l' h
    induction h with
    | nil => rfl
    | cons h _ ih =>
      rw [ih, List.map_cons]
      congr 1
      cases h with
      | bytes a hb =>
        have e : ∀ {b b' : Bytes}, List.Forall₂ (fun x y => y = φ x) b b' → b' = b.map φ := by
          intro b b' h
          induction h with
          | nil => rfl
          | cons h _ ih => rw [h, ih, List.map_cons]
        rw [e hb]; rfl
      | _ => rfl
  exact key h1

section
open Sample

/-- Two packets in the wrong order, and the acknowledgement of what the server writes. -/
def plainNet : Env := env [arr (dg .data 6 3 100 [30, 31]), arr (dg .data 6 2 100 [20]), arr (dg .state 6 4 100)]

/-- The same with other payloads. -/
def otherNet : Env := env [arr (dg .data 6 3 100 [70, 71]), arr (dg .data 6 2 100 [60]), arr (dg .state 6 4 100)]

/-- A datagram without extensions is alike to the one with another payload. -/
theorem alike_of {b b' : Bytes} (h20 : 20 ≤ b.length) (hv : (b.getD 0 0).toNat % 16 = 1) (ht : (b.getD 0 0).toNat / 16 ≤ 4) (ha : b.getD 1 0 = 0)
    (e : b'.take 20 = b.take 20) (hp : List.Forall₂ ρ (b.drop 20) (b'.drop 20)) : Alike ρ b b' := by
  refine ⟨⟨b.take 20, [], b.drop 20⟩, ⟨b'.take 20, [], b'.drop 20⟩, ⟨by simp; omega, ?_, ?_, ?_, by simp⟩, e, rfl, hp, ?_, ?_⟩
  · simpa [List.getD, List.getElem?_take] using hv
  · simpa [List.getD, List.getElem?_take] using ht
  · simpa [List.getD, List.getElem?_take, announce] using ha
  · simp [Datagram.bytes, chainBytes]
  · simp [Datagram.bytes, chainBytes]

theorem otherNet_alike : ∀ k, AlikeEvent (fun x y => y = x + 40) (plainNet.net k) (otherNet.net k)
  | 0 => .dgram _ (alike_of (by decide +kernel) (by decide +kernel) (by decide +kernel) (by decide +kernel) (by decide +kernel) (.cons (by decide +kernel) (.cons (by decide +kernel) .nil)))
  | 1 => .dgram _ (alike_of (by decide +kernel) (by decide +kernel) (by decide +kernel) (by decide +kernel) (by decide +kernel) (.cons (by decide +kernel) .nil))
  | 2 => .dgram _ (alike_of (by decide +kernel) (by decide +kernel) (by decide +kernel) (by decide +kernel) (by decide +kernel) .nil)
  | _ + 3 => .never

/-- The theorems apply to a socket that reads and writes, and the reads do differ. -/
example : let ops : List Op := [.recvFrom 9, .recvFrom 9, .sendTo [1, 2, 3], .flush]
    Reach plainNet (server plainNet) ∧
    results plainNet 9 ops (server plainNet) = [.ok (.bytes [20] peer), .ok (.bytes [30, 31] peer), .ok (.count 3), .ok .unit] ∧
    results otherNet 9 ops (server otherNet) = [.ok (.bytes [60] peer), .ok (.bytes [70, 71] peer), .ok (.count 3), .ok .unit] ∧
    (runs plainNet 9 ops (server plainNet)).log = (runs otherNet 9 ops (server otherNet)).log ∧ (runs plainNet 9 ops (server plainNet)).log.length = 7 :=
  ⟨reach_server 9 [] (by decide +kernel) (by decide +kernel), by decide +kernel, by decide +kernel, by decide +kernel, by decide +kernel⟩

/-- `C89_accept`, `C89_translate` and `C89_sent` apply to these two networks. -/
example (ops : List Op) : results otherNet 9 ops (server otherNet) = (results plainNet 9 ops (server plainNet)).map (relabel (· + 40)) ∧
    (runs otherNet 9 ops (server plainNet)).log = (runs plainNet 9 ops (server plainNet)).log := by
  have h : accept plainNet 1 (arr (dg .syn 5 1 0)) (.ok here) = .made (.ok ()) (server plainNet) peer := by decide +kernel
  obtain ⟨w', h1, h2⟩ := C89_accept (τ := fun _ _ => True) (σ := Eq) otherNet_alike 1 (AlikeEvent.self fun _ _ _ _ _ _ _ _ => trivial) (.ok here) h
  have e : server otherNet = w' := by
    unfold server
    rw [show accept otherNet 1 (arr (dg .syn 5 1 0)) (.ok here) = .made (.ok ()) w' peer from h1]
  refine ⟨?_, C89_sent (net := otherNet.net) (fun k => ?_) (reach_server 9 [] h (by decide +kernel)) 9 ops⟩
  · rw [e]
    exact (C89_translate (· + 40) otherNet_alike h2 9 ops).1
  · have := otherNet_alike k
    generalize plainNet.net k = x at this
    generalize otherNet.net k = x' at this
    cases this with
    | dgram a hb =>
      obtain ⟨d, d', hd, e1, e2, hp, e3, e4⟩ := hb
      exact .dgram a ⟨d, d', hd, e1, e2, hp.imp fun _ _ _ => trivial, e3, e4⟩
    | junk a hb => exact .junk a hb
    | fail k => exact .fail k
    | never => exact .never

end

end Utp
