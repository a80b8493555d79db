import Verif.Lemmas.Frame
import Verif.Lemmas.Eval
/-!
# Fuel

The recursive functions of the model are cut by fuel, and a computation that runs out of fuel is
`pending`.  Here: more fuel never changes a result other than `pending` (`Le`), and rules for showing
that a computation ends once there is enough fuel (`Ends`).
-/

namespace Utp
open M

variable {E : Env} {α β : Type}

/-! ### More fuel does not change a result -/

/-- `m'` does what `m` does, except that it may go on where `m` is pending. -/
def Le (m m' : M α) : Prop := ∀ w, (m w).1 ≠ .pending → m' w = m w

namespace Le

theorem refl (m : M α) : Le m m := fun _ _ => rfl

theorem never {m : M α} : Le M.never m := fun _ h => absurd rfl h

theorem trans {a b c : M α} (h : Le a b) (h' : Le b c) : Le a c := fun w hw => by
  have := h w hw
  rw [h' w (by rw [this]; exact hw), this]

theorem andThen {m m' : M α} {f f' : α → M β} (h : Le m m') (hf : ∀ a, Le (f a) (f' a)) :
    Le (M.andThen m f) (M.andThen m' f') := by
  intro w hw
  unfold M.andThen at hw ⊢
  have := h w
  rcases hm : m w with ⟨r, w'⟩
  rw [hm] at hw this
  cases r with
  | ok a => rw [this (by simp)]; exact hf a w' hw
  | err e => rw [this (by simp)]
  | panic => rw [this (by simp)]
  | pending => exact absurd rfl hw

theorem bind {m m' : M α} {f f' : α → M β} (h : Le m m') (hf : ∀ a, Le (f a) (f' a)) :
    Le (m >>= f) (m' >>= f') := andThen h hf

theorem ignoreErr {m m' : M α} (h : Le m m') : Le (M.ignoreErr m) (M.ignoreErr m') := by
  intro w hw
  unfold M.ignoreErr at hw ⊢
  have := h w
  rcases hm : m w with ⟨r, w'⟩
  rw [hm] at hw this
  cases r with
  | pending => exact absurd rfl hw
  | _ => rw [this (by simp)]

theorem ite {c : Prop} [Decidable c] {a a' b b' : M α} (h : Le a a') (h' : Le b b') :
    Le (if c then a else b) (if c then a' else b') := by
  split
  · exact h
  · exact h'

theorem whileM {c : M Bool} {b b' : M Unit} (hb : Le b b') : ∀ {n n' : Nat}, n ≤ n' → Le (M.whileM n c b) (M.whileM n' c b')
  | 0, _, _ => .never
  | n + 1, 0, h => absurd h (by omega)
  | n + 1, n' + 1, h => by
    unfold M.whileM
    refine andThen (refl c) fun go => ?_
    split
    · exact andThen hb fun _ => whileM hb (by omega)
    · exact refl _

end Le

section
variable {f f' : Nat} {rec rec' : M (Bytes × Addr)}

theorem le_recvWait : ∀ {n n' : Nat} (r : Nat), n ≤ n' → Le (recvWait E n r) (recvWait E n' r)
  | 0, _, _, _ => .never
  | n + 1, 0, _, h => absurd h (by omega)
  | n + 1, n' + 1, r, h => by
    have := le_recvWait (n := n) (n' := n') (r + 1) (by omega)
    unfold recvWait
    refine .bind (.refl _) fun s => .ite (.refl _) (.bind (.refl _) fun x => ?_)
    split
    · exact .refl _
    · exact .ite (.bind (.refl _) fun _ => this) (.refl _)

theorem le_sendPacket (hf : f ≤ f') (hr : Le rec rec') (p : Packet) :
    Le (sendPacket E f rec p) (sendPacket E f' rec' p) := by
  unfold sendPacket
  have := fun c => Le.whileM (c := c) (Le.andThen hr fun _ => Le.refl (M.ret ())) hf
  refine .bind (.refl _) fun s => .bind (.refl _) fun t => .bind (this _) fun _ => .refl _

theorem le_resendLost (hf : f ≤ f') (hr : Le rec rec') (nr : U16) : Le (resendLost E f rec nr) (resendLost E f' rec' nr) := by
  have := fun p => le_sendPacket (E := E) hf hr p
  unfold resendLost
  refine .bind (.refl _) fun s => ?_
  split
  · exact .refl _
  · exact .ignoreErr (this _)

theorem le_resendMissing (hf : f ≤ f') (hr : Le rec rec') (ack last : U16) : ∀ l loss,
    Le (resendMissing E f rec ack last l loss) (resendMissing E f' rec' ack last l loss)
  | [], _ => .refl _
  | (idx, received) :: rest, loss => by
    have ih := le_resendMissing hf hr ack last rest
    unfold resendMissing
    refine .ite (ih _) (.bind (.refl _) fun _ => .ite (.bind (le_resendLost hf hr _) fun _ => ih _) (.refl _))

theorem le_resendFirst (hf : f ≤ f') (hr : Le rec rec') (ack : U16) (data : Bytes) (loss : Bool) :
    Le (resendFirst E f rec ack data loss) (resendFirst E f' rec' ack data loss) := by
  unfold resendFirst
  exact .ite (.bind (.refl _) fun _ => .bind (le_resendLost hf hr _) fun _ => .refl _) (.refl _)

theorem le_processExtensions (hf : f ≤ f') (hr : Le rec rec') (ack : U16) : ∀ l loss,
    Le (processExtensions E f rec ack l loss) (processExtensions E f' rec' ack l loss)
  | [], _ => .refl _
  | e :: rest, loss => by
    have ih := le_processExtensions hf hr ack rest
    unfold processExtensions
    refine .ite (.bind (le_resendFirst hf hr _ _ _) fun _ => .bind (.refl _) fun s => ?_) (ih _)
    split
    · exact ih _
    · exact .bind (.refl _) fun _ => .bind (le_resendMissing hf hr _ _ _ _) fun _ => ih _

theorem le_fastRetransmit (hf : f ≤ f') (hr : Le rec rec') (pkt : Packet) (exts : List Extension) :
    Le (fastRetransmit E f rec pkt exts) (fastRetransmit E f' rec' pkt exts) := by
  unfold fastRetransmit
  exact .bind (.refl _) fun s => .ite (.bind (.refl _) fun _ => le_resendLost hf hr _) (.refl _)

theorem le_handleState (hf : f ≤ f') (hr : Le rec rec') (pkt : Packet) :
    Le (handleState E f rec pkt) (handleState E f' rec' pkt) := by
  unfold handleState
  exact .bind (.refl _) fun _ => .bind (.refl _) fun _ => .bind (.refl _) fun s => .bind (.refl _) fun exts =>
    .bind (le_processExtensions hf hr _ _ _) fun loss => .bind (le_fastRetransmit hf hr _ _) fun _ => .refl _

theorem le_dispatch (hf : f ≤ f') (hr : Le rec rec') (pkt : Packet) (src : Addr) (st : SocketState) (ty : PacketType) :
    Le (dispatch E f rec pkt src st ty) (dispatch E f' rec' pkt src st ty) := by
  cases st <;> cases ty <;> first
    | exact .refl _
    | exact .bind (le_handleState hf hr _) fun _ => .refl _

theorem le_handlePacket (hf : f ≤ f') (hr : Le rec rec') (pkt : Packet) (src : Addr) :
    Le (handlePacket E f rec pkt src) (handlePacket E f' rec' pkt src) := by
  unfold handlePacket
  exact .bind (.refl _) fun _ => .bind (.refl _) fun s => .bind (.refl _) fun ty => .ite (.refl _)
    (.bind (.refl _) fun _ => .bind (.refl _) fun _ => le_dispatch hf hr _ _ _ _)

theorem le_recvPacket (hf : f ≤ f') (hr : Le rec rec') (len : Nat) (pkt : Packet) (src : Addr) :
    Le (recvPacket E f rec len pkt src) (recvPacket E f' rec' len pkt src) := by
  unfold recvPacket
  exact .bind (le_handlePacket hf hr _ _) fun _ => .refl _

theorem le_recvBody (hf : f ≤ f') (hr : Le rec rec') (len : Nat) :
    Le (recvBody E f rec len) (recvBody E f' rec' len) := by
  unfold recvBody
  refine .bind (le_recvWait 0 hf) fun x => ?_
  refine .bind (.refl _) fun y => ?_
  split
  · exact .refl _
  · exact le_recvPacket hf hr _ _ _

end

theorem le_recv : ∀ {f f' : Nat} (len : Nat), f ≤ f' → Le (recv E f len) (recv E f' len)
  | 0, _, _, _ => .never
  | f + 1, 0, _, h => absurd h (by omega)
  | f + 1, f' + 1, len, h => le_recvBody (by omega) (le_recv BUF_SIZE (by omega)) len

theorem le_recvFromLoop {f f' : Nat} (hf : f ≤ f') (len : Nat) : ∀ {n n' : Nat}, n ≤ n' →
    Le (recvFromLoop E f len n) (recvFromLoop E f' len n')
  | 0, _, _ => .never
  | n + 1, 0, h => absurd h (by omega)
  | n + 1, n' + 1, h => by
    unfold recvFromLoop
    exact .bind (.refl _) fun s => .ite (.refl _) (.bind (le_recv len hf) fun x =>
      .ite (le_recvFromLoop hf len (by omega)) (.refl _))

theorem le_recvFrom {f f' : Nat} (hf : f ≤ f') (len : Nat) : Le (recvFrom E f len) (recvFrom E f' len) := by
  unfold recvFrom
  exact .bind (.refl _) fun _ => .bind (.refl _) fun s => .ite (.refl _) (.ite (.refl _) (le_recvFromLoop hf len hf))

theorem le_sendQueue {f f' : Nat} (hf : f ≤ f') : ∀ {n n' : Nat}, n ≤ n' → Le (sendQueue E f n) (sendQueue E f' n')
  | 0, _, _ => .never
  | n + 1, 0, h => absurd h (by omega)
  | n + 1, n' + 1, h => by
    unfold sendQueue
    refine .bind (.refl _) fun s => ?_
    split
    · exact .refl _
    · exact .bind (.refl _) fun _ => .bind (le_sendPacket hf (le_recv BUF_SIZE hf) _) fun _ => .bind (.refl _) fun _ =>
        .bind (.refl _) fun _ => .bind (.refl _) fun _ => le_sendQueue hf (by omega)

theorem le_sendTo {f f' : Nat} (hf : f ≤ f') (buf : Bytes) : Le (sendTo E f buf) (sendTo E f' buf) := by
  unfold sendTo
  exact .bind (.refl _) fun s => .ite (.refl _) (.bind (.refl _) fun _ => .bind (le_sendQueue hf hf) fun _ => .refl _)

theorem le_scratchRecv {f f' : Nat} (hf : f ≤ f') : Le (scratchRecv E f) (scratchRecv E f') := by
  unfold scratchRecv
  exact .bind (le_recv BUF_SIZE hf) fun _ => .refl _

theorem le_flush {f f' : Nat} (hf : f ≤ f') : Le (flush E f) (flush E f') := by
  unfold flush
  exact .whileM (le_scratchRecv hf) hf

theorem le_close {f f' : Nat} (hf : f ≤ f') : Le (close E f) (close E f') := by
  unfold close
  exact .bind (.refl _) fun s => .ite (.refl _) (.bind (le_flush hf) fun _ => .bind (.refl _) fun _ => .bind (.refl _) fun _ =>
    .bind (.refl _) fun _ => .bind (.refl _) fun _ => .whileM (le_scratchRecv hf) hf)

theorem le_runOp {f f' : Nat} (hf : f ≤ f') (op : Op) : Le (runOp E f op) (runOp E f' op) := by
  cases op with
  | recvFrom len => exact .bind (le_recvFrom hf len) fun _ => .refl _
  | sendTo buf => exact .bind (le_sendTo hf buf) fun _ => .refl _
  | flush => exact .bind (le_flush hf) fun _ => .refl _
  | close => exact .bind (le_close hf) fun _ => .refl _
  | setMaxRetries n => exact .refl _

/-- More fuel does not change the result of an operation that is not pending. -/
theorem runOp_fuel {f f' : Nat} (hf : f ≤ f') (op : Op) {w : World} (h : (runOp E f op w).1 ≠ .pending) :
    runOp E f' op w = runOp E f op w := le_runOp hf op w h

/-! ### Computations that end -/

/-- What every part of a receive leaves alone or increases. -/
def Keep (w w' : World) : Prop := w.nNet ≤ w'.nNet ∧ w'.s.unsent = w.s.unsent

theorem Keep.refl (w : World) : Keep w w := ⟨Nat.le_refl _, rfl⟩
theorem Keep.trans {a b c : World} (h : Keep a b) (h' : Keep b c) : Keep a c := ⟨Nat.le_trans h.1 h'.1, h'.2.trans h.2⟩

/-- With enough fuel, the computation ends, always in the same way; if it returns a value, `Q` holds of it. -/
def Ends (m : Nat → M α) (w : World) (Q : α → World → Prop) : Prop :=
  ∃ r w', r ≠ .pending ∧ Keep w w' ∧ (∀ a, r = .ok a → Q a w') ∧ ∃ F, ∀ n, F ≤ n → m n w = (r, w')

namespace Ends

theorem const {m : M α} {w : World} {Q : α → World → Prop} (h : (m w).1 ≠ .pending) (hk : Keep w (m w).2)
    (hq : ∀ a, (m w).1 = .ok a → Q a (m w).2) : Ends (fun _ => m) w Q := ⟨_, _, h, hk, hq, 0, fun _ _ => rfl⟩

theorem mono {m : Nat → M α} {w : World} {Q Q' : α → World → Prop} (h : Ends m w Q) (hq : ∀ a w', Keep w w' → Q a w' → Q' a w') :
    Ends m w Q' := by
  obtain ⟨r, w', h1, h2, h3, h4⟩ := h
  exact ⟨r, w', h1, h2, fun a ha => hq a w' h2 (h3 a ha), h4⟩

theorem congr {m m' : Nat → M α} {w : World} {Q : α → World → Prop} (h : Ends m w Q) (hm : ∀ n, m' n w = m n w) : Ends m' w Q := by
  obtain ⟨r, w', h1, h2, h3, F, h4⟩ := h
  exact ⟨r, w', h1, h2, h3, F, fun n hn => (hm n).trans (h4 n hn)⟩

theorem andThen {m : Nat → M α} {f : Nat → α → M β} {w : World} {Q : α → World → Prop} {Q' : β → World → Prop} (h : Ends m w Q)
    (hf : ∀ a w', Keep w w' → Q a w' → Ends (fun n => f n a) w' Q') : Ends (fun n => M.andThen (m n) (f n)) w Q' := by
  obtain ⟨r, w', h1, h2, h3, F, h4⟩ := h
  cases r with
  | ok a =>
    obtain ⟨r', w'', g1, g2, g3, G, g4⟩ := hf a w' h2 (h3 a rfl)
    refine ⟨r', w'', g1, h2.trans g2, g3, F + G, fun n hn => ?_⟩
    show M.andThen (m n) (f n) w = _
    rw [andThen_eq (h4 n (by omega))]
    exact g4 n (by omega)
  | err e => exact ⟨.err e, w', by simp, h2, by simp, F, fun n hn => andThen_err (h4 n hn)⟩
  | panic => exact ⟨.panic, w', by simp, h2, by simp, F, fun n hn => andThen_eq_panic (h4 n hn)⟩
  | pending => exact absurd rfl h1

theorem bind {m : Nat → M α} {f : Nat → α → M β} {w : World} {Q : α → World → Prop} {Q' : β → World → Prop} (h : Ends m w Q)
    (hf : ∀ a w', Keep w w' → Q a w' → Ends (fun n => f n a) w' Q') : Ends (fun n => m n >>= f n) w Q' := andThen h hf

theorem seq {m : Nat → M α} {f : Nat → α → M β} {w : World} {Q' : β → World → Prop} (h : Ends m w fun _ _ => True)
    (hf : ∀ a w', Keep w w' → Ends (fun n => f n a) w' Q') : Ends (fun n => m n >>= f n) w Q' := andThen h fun a w' hk _ => hf a w' hk

theorem ignoreErr {m : Nat → M α} {w : World} {Q : Unit → World → Prop} (h : Ends m w fun _ _ => True) (hq : ∀ w', Keep w w' → Q () w') :
    Ends (fun n => M.ignoreErr (m n)) w Q := by
  obtain ⟨r, w', h1, h2, h3, F, h4⟩ := h
  cases r with
  | ok a => exact ⟨.ok (), w', by simp, h2, fun _ _ => hq _ h2, F, fun n hn => by simp only [M.ignoreErr, h4 n hn]⟩
  | err e => exact ⟨.ok (), w', by simp, h2, fun _ _ => hq _ h2, F, fun n hn => by simp only [M.ignoreErr, h4 n hn]⟩
  | panic => exact ⟨.panic, w', by simp, h2, by simp, F, fun n hn => by simp only [M.ignoreErr, h4 n hn]⟩
  | pending => exact absurd rfl h1

theorem succ {m : Nat → M α} {w : World} {Q : α → World → Prop} (h : Ends (fun n => m (n + 1)) w Q) : Ends m w Q := by
  obtain ⟨r, w', h1, h2, h3, F, h4⟩ := h
  refine ⟨r, w', h1, h2, h3, F + 1, fun n hn => ?_⟩
  obtain ⟨k, rfl⟩ : ∃ k, n = k + 1 := ⟨n - 1, by omega⟩
  exact h4 k (by omega)

theorem ret {a : α} {w : World} {Q : α → World → Prop} (h : Q a w) : Ends (fun _ => M.ret a) w Q :=
  const (by simp [M.ret]) (Keep.refl w) (by intro b hb; simp [M.ret] at hb; subst hb; exact h)
theorem pure {a : α} {w : World} {Q : α → World → Prop} (h : Q a w) : Ends (fun _ => (Pure.pure a : M α)) w Q := ret h
theorem throw {e : IoErr} {w : World} {Q : α → World → Prop} : Ends (fun _ => (M.throw e : M α)) w Q :=
  const (by simp [M.throw]) (Keep.refl w) (by simp [M.throw])
theorem getS {w : World} {Q : Socket → World → Prop} (h : Q w.s w) : Ends (fun _ => M.getS) w Q :=
  const (by simp [M.getS]) (Keep.refl w) (by intro b hb; simp [M.getS] at hb; subst hb; exact h)
theorem modS {f : Socket → Socket} {w : World} {Q : Unit → World → Prop} (hf : (f w.s).unsent = w.s.unsent) (h : Q () (w.setS (f w.s))) :
    Ends (fun _ => M.modS f) w Q := const (by simp [M.modS]) ⟨Nat.le_refl _, hf⟩ fun _ _ => h
theorem now {w : World} {Q : U32 → World → Prop} (h : ∀ t, Q t { w with nNow := w.nNow + 1 }) : Ends (fun _ => M.now E) w Q :=
  const (by simp [M.now]) (Keep.refl _) fun _ _ => h _
theorem rand {w : World} {Q : U16 → World → Prop} (h : ∀ t, Q t { w with nRand := w.nRand + 1 }) : Ends (fun _ => M.rand E) w Q :=
  const (by simp [M.rand]) (Keep.refl _) fun _ _ => h _
theorem orPanic {o : Option α} {w : World} {Q : α → World → Prop} (h : ∀ a, o = some a → Q a w) : Ends (fun _ => M.orPanic o) w Q := by
  cases o with
  | none => exact const (by simp [M.orPanic, M.panic]) (Keep.refl w) (by simp [M.orPanic, M.panic])
  | some a => exact ret (h a rfl)
theorem overflowIf {b : Bool} {w : World} {Q : Unit → World → Prop} (h : Q () w) : Ends (fun _ => M.overflowIf E b) w Q := by
  unfold M.overflowIf
  split
  · exact const (by simp [M.panic]) (Keep.refl w) (by simp [M.panic])
  · exact ret h
theorem udpSend (hs : ∀ n, E.snd n ≠ .never) {dst : Addr} {b : Bytes} {w : World} {Q : Unit → World → Prop} (h : ∀ w', Keep w w' → Q () w') :
    Ends (fun _ => M.udpSend E dst b) w Q := by
  obtain ⟨r, ok, e, h'⟩ := udpSend_cases (E := E) dst b w
  refine const ?_ ?_ ?_
  · rw [e]
    rcases h' with ⟨rfl, -⟩ | ⟨k, rfl, -⟩ | ⟨-, hn⟩
    · simp
    · simp
    · exact absurd hn (hs _)
  · rw [e]; exact ⟨Nat.le_refl _, rfl⟩
  · rw [e]; exact fun _ _ => h _ ⟨Nat.le_refl _, rfl⟩
theorem ite {c : Prop} [Decidable c] {a b : Nat → M α} {w : World} {Q : α → World → Prop} (h : c → Ends a w Q) (h' : ¬ c → Ends b w Q) :
    Ends (fun n => if c then a n else b n) w Q := by
  split
  · exact h ‹_›
  · exact h' ‹_›

/-- A loop whose body, when it succeeds, gets nearer to a bound on the number of receives. -/
theorem whileM {c : M Bool} {b : Nat → M Unit} {N : Nat} {w : World} {X : World → Prop} (hX : ∀ {a a'}, Keep a a' → X a → X a')
    (hx : X w) (hc : ∀ w, X w → Ends (fun _ => c) w fun _ w' => w'.nNet = w.nNet)
    (hb : ∀ w, X w → Ends b w fun _ w' => w.nNet < N ∧ w.nNet < w'.nNet) :
    Ends (fun n => M.whileM n c (b n)) w fun _ _ => True := by
  have key : ∀ k w, N - w.nNet = k → X w → ∃ r w', r ≠ .pending ∧ Keep w w' ∧ ∃ F, ∀ n f, F ≤ n → F ≤ f →
      M.whileM n c (b f) w = (r, w') := by
    intro k
    induction k using Nat.strongRecOn with
    | _ k ih =>
      intro w hk hx
      obtain ⟨r, w1, h1, h2, h3, F, h4⟩ := hc w hx
      have unf : ∀ n f, M.whileM (n + 1) c (b f) w = M.andThen c (fun go => if go then M.andThen (b f) fun _ => M.whileM n c (b f) else M.ret ()) w :=
        fun _ _ => rfl
      have h4 := h4 F (Nat.le_refl F)
      cases r with
      | err e =>
        refine ⟨.err e, w1, by simp, h2, 1, fun n f hn hf => ?_⟩
        obtain ⟨n, rfl⟩ : ∃ k, n = k + 1 := ⟨n - 1, by omega⟩
        rw [unf, andThen_err h4]
      | panic =>
        refine ⟨.panic, w1, by simp, h2, 1, fun n f hn hf => ?_⟩
        obtain ⟨n, rfl⟩ : ∃ k, n = k + 1 := ⟨n - 1, by omega⟩
        rw [unf, andThen_eq_panic h4]
      | pending => exact absurd rfl h1
      | ok go =>
        cases go with
        | false =>
          refine ⟨.ok (), w1, by simp, h2, 1, fun n f hn hf => ?_⟩
          obtain ⟨n, rfl⟩ : ∃ k, n = k + 1 := ⟨n - 1, by omega⟩
          rw [unf, andThen_eq h4]
          rfl
        | true =>
          have e := h3 true rfl
          obtain ⟨r, w2, g1, g2, g3, G, g4⟩ := hb w1 (hX h2 hx)
          cases r with
          | err e =>
            refine ⟨.err e, w2, by simp, h2.trans g2, G + 1, fun n f hn hf => ?_⟩
            obtain ⟨n, rfl⟩ : ∃ k, n = k + 1 := ⟨n - 1, by omega⟩
            rw [unf, andThen_eq h4, if_pos rfl, andThen_err (g4 f (by omega))]
          | panic =>
            refine ⟨.panic, w2, by simp, h2.trans g2, G + 1, fun n f hn hf => ?_⟩
            obtain ⟨n, rfl⟩ : ∃ k, n = k + 1 := ⟨n - 1, by omega⟩
            rw [unf, andThen_eq h4, if_pos rfl, andThen_eq_panic (g4 f (by omega))]
          | pending => exact absurd rfl g1
          | ok u =>
            obtain ⟨e1, e2⟩ := g3 u rfl
            obtain ⟨r, w3, j1, j2, H, j3⟩ := ih (N - w2.nNet) (by omega) w2 rfl (hX (h2.trans g2) hx)
            refine ⟨r, w3, j1, (h2.trans g2).trans j2, G + H + 1, fun n f hn hf => ?_⟩
            obtain ⟨n, rfl⟩ : ∃ k, n = k + 1 := ⟨n - 1, by omega⟩
            rw [unf, andThen_eq h4, if_pos rfl, andThen_eq (g4 f (by omega))]
            exact j3 n f (by omega) (by omega)
  obtain ⟨r, w', h1, h2, F, h3⟩ := key _ w rfl hx
  exact ⟨r, w', h1, h2, fun _ _ => trivial, F, fun n hn => h3 n n hn hn⟩

end Ends

end Utp
