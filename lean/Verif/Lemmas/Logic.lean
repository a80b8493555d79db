import Verif.Lemmas.Step
/-!
# A program logic for the socket code

`At E V m w Q`: run from `w`, the computation `m` makes a sequence of steps (unless it panics), panics only in builds
with overflow checks and only in a world where an arithmetic operation overflows, and if it returns a value, `Q` holds of it and
the final world.
-/

namespace Utp
open M

/-- An arithmetic operation done in the world `w` overflows. -/
inductive Overflow (E : Env) (V : Ctx) (w : World) : Prop
  | buffered : w.s.ackNr = 65535 → w.s.incoming ≠ [] → Overflow E V w
  | timeout : 2 ^ 64 ≤ w.s.congTimeout.toNat * 2 → Overflow E V w
  | sack (pkt src exts e i) : Received E w pkt src → pkt.getType = some .state → pkt.extensions = some exts → e ∈ exts → e.ty = .selectiveAck →
      i < 8 * e.data.length → Spec.bitAt e.data i = false → 65536 ≤ pkt.ackNr.toNat + 2 + i → Overflow E V w
  | ack (pkt src) : Received E w pkt src → pkt.getType = some .state → pkt.ackNr = 65535 → Overflow E V w
  | dupAcks : 2 ^ 32 ≤ w.s.dupAcks.toNat + 1 → Overflow E V w
  | syn (pkt src) : Received E w pkt src → pkt.getType = some .syn → pkt.connectionId = 65535 → w.s.state = .new → Overflow E V w
  | synAck : w.s.seqNr = 65535 → w.s.state = .synSent → Overflow E V w
  | push (p) : V p → 2 ^ 32 ≤ w.s.currWindow.toNat + (BitVec.ofNat 32 p.len).toNat → Overflow E V w
  | window : 2 ^ 32 ≤ w.s.currWindow.toNat + 1400 → Overflow E V w
  | advance : w.s.advanceSendWindow E = none → Overflow E V w

def At (E : Env) (V : Ctx) {α : Type} (m : M α) (w : World) (Q : α → World → Prop) : Prop :=
  ((m w).1 ≠ .panic → Steps E V w (m w).2) ∧ ((m w).1 = .panic → E.checks = true ∧ Steps E V w (m w).2 ∧ Overflow E V (m w).2) ∧
    ∀ a, (m w).1 = .ok a → Q a (m w).2

variable {E : Env} {V : Ctx} {α β : Type}

theorem At.safe {m : M α} {w : World} {Q : α → World → Prop} (h : At E V m w Q) (hc : E.checks = false) : (m w).1 ≠ .panic := by
  intro hp
  have := (h.2.1 hp).1
  rw [hc] at this
  simp at this

theorem bind_def (m : M α) (f : α → M β) : (m >>= f) = M.andThen m f := rfl
theorem pure_def (a : α) : (pure a : M α) = M.ret a := rfl

theorem andThen_ok {m : M α} {f : α → M β} {w w'' : World} {b : β} (h : M.andThen m f w = (.ok b, w'')) :
    ∃ a w', m w = (.ok a, w') ∧ f a w' = (.ok b, w'') := by
  unfold M.andThen at h
  rcases hm : m w with ⟨r, w'⟩
  rw [hm] at h
  cases r with
  | ok a => exact ⟨a, w', rfl, h⟩
  | err e => simp at h
  | panic => simp at h
  | pending => simp at h

theorem At.andThen {m : M α} {f : α → M β} {w : World} {Q : α → World → Prop} {Q' : β → World → Prop}
    (h : At E V m w Q) (hf : ∀ a w', Steps E V w w' → Q a w' → At E V (f a) w' Q') :
    At E V (M.andThen m f) w Q' := by
  obtain ⟨h1, h2, h3⟩ := h
  unfold At M.andThen
  rcases hm : m w with ⟨r, w'⟩
  rw [hm] at h1 h2 h3
  cases r with
  | ok a =>
    obtain ⟨g1, g2, g3⟩ := hf a w' (h1 (by simp)) (h3 a rfl)
    refine ⟨fun h => (h1 (by simp)).trans (g1 h), fun h => ?_, g3⟩
    obtain ⟨k1, k2, k3⟩ := g2 h
    exact ⟨k1, (h1 (by simp)).trans k2, k3⟩
  | err e => exact ⟨fun _ => h1 (by simp), fun h => by simp at h, by simp⟩
  | panic => exact ⟨fun h => by simp at h, fun _ => h2 rfl, by simp⟩
  | pending => exact ⟨fun _ => h1 (by simp), fun h => by simp at h, by simp⟩

theorem At.bind {m : M α} {f : α → M β} {w : World} {Q : α → World → Prop} {Q' : β → World → Prop}
    (h : At E V m w Q) (hf : ∀ a w', Steps E V w w' → Q a w' → At E V (f a) w' Q') :
    At E V (m >>= f) w Q' := At.andThen h hf

theorem At.mono {m : M α} {w : World} {Q Q' : α → World → Prop} (h : At E V m w Q)
    (hq : ∀ a w', Steps E V w w' → Q a w' → Q' a w') : At E V m w Q' := by
  refine ⟨h.1, h.2.1, fun a ha => hq a _ (h.1 ?_) (h.2.2 a ha)⟩
  rw [ha]; simp

theorem At.ret {a : α} {w : World} {Q : α → World → Prop} (h : Q a w) : At E V (M.ret a) w Q := by
  refine ⟨fun _ => .refl _, fun h => by simp [M.ret] at h, fun b hb => ?_⟩
  simp [M.ret] at hb; subst hb; exact h

theorem At.pure {a : α} {w : World} {Q : α → World → Prop} (h : Q a w) : At E V (Pure.pure a : M α) w Q :=
  At.ret h

theorem At.throw {e : IoErr} {w : World} {Q : α → World → Prop} : At E V (M.throw e : M α) w Q :=
  ⟨fun _ => .refl _, fun h => by simp [M.throw] at h, by simp [M.throw]⟩

theorem At.never {w : World} {Q : α → World → Prop} : At E V (M.never : M α) w Q :=
  ⟨fun _ => .refl _, fun h => by simp [M.never] at h, by simp [M.never]⟩

theorem At.getS {w : World} {Q : Socket → World → Prop} (h : Q w.s w) : At E V M.getS w Q :=
  ⟨fun _ => .refl _, fun h => by simp [M.getS] at h, by intro a ha; simp [M.getS] at ha; subst ha; exact h⟩

theorem At.modS {f : Socket → Socket} {w : World} {Q : Unit → World → Prop}
    (hs : Steps E V w (w.setS (f w.s))) (h : Q () (w.setS (f w.s))) : At E V (M.modS f) w Q :=
  ⟨fun _ => hs, fun h => by simp [M.modS] at h, fun _ _ => h⟩

theorem At.now {w : World} {Q : U32 → World → Prop}
    (h : ∀ t, Q t { w with nNow := w.nNow + 1 }) : At E V (M.now E) w Q :=
  ⟨fun _ => .single (.tick w), fun h => by simp [M.now] at h, fun _ _ => h _⟩

theorem At.rand {w : World} {Q : U16 → World → Prop}
    (h : ∀ t, Q t { w with nRand := w.nRand + 1 }) : At E V (M.rand E) w Q :=
  ⟨fun _ => .single (.draw w), fun h => by simp [M.rand] at h, fun _ _ => h _⟩

theorem At.orPanic {o : Option α} {w : World} {Q : α → World → Prop}
    (hn : o = none → E.checks = true ∧ Overflow E V w) (h : ∀ a, o = some a → Q a w) : At E V (M.orPanic o) w Q := by
  cases o with
  | none => exact ⟨fun h => absurd rfl h, fun _ => ⟨(hn rfl).1, .refl _, (hn rfl).2⟩, by simp [M.orPanic, M.panic]⟩
  | some a => exact At.ret (h a rfl)

theorem At.overflowIf {b : Bool} {w : World} {Q : Unit → World → Prop}
    (ho : b = true → Overflow E V w) (h : (E.checks = true → b = false) → Q () w) : At E V (M.overflowIf E b) w Q := by
  unfold M.overflowIf
  split
  · rename_i hc
    simp only [Bool.and_eq_true] at hc
    exact ⟨fun h => absurd rfl h, fun _ => ⟨hc.1, .refl _, ho hc.2⟩, by simp [M.panic]⟩
  · rename_i hc
    refine At.ret (h fun h => ?_)
    simpa [h] using hc

theorem At.ignoreErr {m : M α} {w : World} {Q : Unit → World → Prop}
    (h : At E V m w fun _ _ => True) (hq : ∀ w', Steps E V w w' → Q () w') : At E V (M.ignoreErr m) w Q := by
  obtain ⟨h1, h2, _⟩ := h
  unfold At M.ignoreErr
  rcases hm : m w with ⟨r, w'⟩
  rw [hm] at h1 h2
  cases r with
  | ok a => exact ⟨fun _ => h1 (by simp), fun h => by simp at h, fun _ _ => hq _ (h1 (by simp))⟩
  | err e => exact ⟨fun _ => h1 (by simp), fun h => by simp at h, fun _ _ => hq _ (h1 (by simp))⟩
  | panic => exact ⟨fun h => by simp at h, fun _ => h2 rfl, by simp⟩
  | pending => exact ⟨fun _ => h1 (by simp), fun h => by simp at h, by simp⟩

theorem At.udpSend {dst : Addr} {p : Packet} {w : World} {Q : Unit → World → Prop}
    (he : Emitted E V w dst p)
    (h : Q () { w with nSnd := w.nSnd + 1, log := w.log ++ [.send dst p.bytes true] }) :
    At E V (M.udpSend E dst p.bytes) w Q := by
  unfold At M.udpSend
  simp only
  cases E.snd w.nSnd with
  | ok => exact ⟨fun _ => .single (.send w dst p true he), fun h => by simp at h, fun _ _ => h⟩
  | fail k => exact ⟨fun _ => .single (.send w dst p false he), fun h => by simp at h, by simp⟩
  | never => exact ⟨fun _ => .single (.send w dst p false he), fun h => by simp at h, by simp⟩

theorem At.ignoreSend {dst : Addr} {p : Packet} {w : World} {Q : Unit → World → Prop}
    (he : Emitted E V w dst p)
    (h : ∀ ok, Q () { w with nSnd := w.nSnd + 1, log := w.log ++ [.send dst p.bytes ok] }) :
    At E V (M.ignoreErr (M.udpSend E dst p.bytes)) w Q := by
  unfold At M.ignoreErr M.udpSend
  simp only
  cases E.snd w.nSnd with
  | ok => exact ⟨fun _ => .single (.send w dst p true he), fun h => by simp at h, fun _ _ => h _⟩
  | fail k => exact ⟨fun _ => .single (.send w dst p false he), fun h => by simp at h, fun _ _ => h _⟩
  | never => exact ⟨fun _ => .single (.send w dst p false he), fun h => by simp at h, by simp⟩

theorem At.udpRecv {n : Nat} {w : World} {Q : Except ErrorKind (Bytes × Addr) → World → Prop}
    (h : ∀ r, (∀ b src, r = .ok (b, src) → ∃ b0, E.net w.nNet = .dgram b0 src ∧ b = b0.take n) →
      (∀ e, r = .error e → E.net w.nNet = .fail e) →
      Q r { w with nNet := w.nNet + 1,
                   log := w.log ++ [.wait (if w.s.state ≠ .new then some w.s.congTimeout else none)] }) :
    At E V (M.udpRecv E (if w.s.state ≠ .new then some w.s.congTimeout else none) n) w Q := by
  unfold At M.udpRecv
  simp only
  cases hn : E.net w.nNet with
  | dgram b src =>
    refine ⟨fun _ => .single (.wait w), fun h => by simp at h, fun a ha => ?_⟩
    simp only [Res.ok.injEq] at ha; subst ha
    refine h _ ?_ ?_
    · intro b' src' e
      simp at e
      obtain ⟨rfl, rfl⟩ := e
      exact ⟨_, hn, rfl⟩
    · simp
  | fail k =>
    refine ⟨fun _ => .single (.wait w), fun h => by simp at h, fun a ha => ?_⟩
    simp only [Res.ok.injEq] at ha; subst ha
    exact h _ (by simp) (by simp [hn])
  | never => exact ⟨fun _ => .single (.wait w), fun h => by simp at h, by simp⟩

/-- `J` holds at every turn of the loop, `Y` at the start of the body, `X` at the end. -/
theorem At.whileM {J X Y : World → Prop} {c : M Bool} {b : M Unit}
    (hc : ∀ w, J w → At E V c w fun go w' => J w' ∧ (go = false → X w') ∧ (go = true → Y w'))
    (hb : ∀ w, J w → Y w → At E V b w fun _ w' => J w') :
    ∀ n w, J w → At E V (M.whileM n c b) w fun _ w' => J w' ∧ X w' := by
  intro n
  induction n with
  | zero => intro w _; exact At.never
  | succ n ih =>
    intro w hw
    refine At.andThen (hc w hw) fun go w' _ hq => ?_
    cases go with
    | true => exact At.andThen (hb w' hq.1 (hq.2.2 rfl)) fun _ w'' _ hj => ih w'' hj
    | false => exact At.ret ⟨hq.1, hq.2.1 rfl⟩

end Utp
