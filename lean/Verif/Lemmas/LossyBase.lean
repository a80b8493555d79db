import Verif.Spec.Lossy
import Verif.Lemmas.Lossless
/-!
# A network that loses datagrams: effects, and waiting
-/

namespace Utp
open M

variable {E : Env} {α β : Type}

/-! ### The effects of a program -/

theorem waitsOf_append (l l' : List Act) : waitsOf (l ++ l') = waitsOf l + waitsOf l' := by
  induction l with
  | nil => simp [waitsOf]
  | cons x l ih => cases x <;> simp [waitsOf, ih] <;> omega

theorem waitsOf_prefix {l l' : List Act} (h : l <+: l') : waitsOf l ≤ waitsOf l' := by
  obtain ⟨r, rfl⟩ := h
  rw [waitsOf_append]; omega

theorem DatagramAt.extend {l l' : List Act} {i s : Nat} {d : Bytes} (h : DatagramAt l i s d) (hp : l <+: l') : DatagramAt l' i s d := by
  obtain ⟨pre, dst, ok, post, rfl, h1, h2⟩ := h
  obtain ⟨r, rfl⟩ := hp
  exact ⟨pre, dst, ok, post ++ r, by simp, h1, h2⟩

/-- Of two ways to cut a list before an element, one cuts before the other, or both are the same. -/
theorem cut_compare {γ : Type} {l pre pre' post post' : List γ} {x x' : γ} (e : l = pre ++ x :: post) (e' : l = pre' ++ x' :: post') :
    pre ++ [x] <+: pre' ∨ (pre = pre' ∧ x = x') ∨ pre' ++ [x'] <+: pre := by
  rw [e] at e'
  rcases List.append_eq_append_iff.mp e' with ⟨r, h1, h2⟩ | ⟨r, h1, h2⟩
  · cases r with
    | nil =>
      simp only [List.nil_append, List.cons.injEq] at h2
      exact .inr (.inl ⟨by simpa using h1.symm, h2.1⟩)
    | cons y r =>
      simp only [List.cons_append, List.cons.injEq] at h2
      exact .inl ⟨r, by rw [h1, h2.1]; simp⟩
  · cases r with
    | nil =>
      simp only [List.nil_append, List.cons.injEq] at h2
      exact .inr (.inl ⟨by simpa using h1, h2.1.symm⟩)
    | cons y r =>
      simp only [List.cons_append, List.cons.injEq] at h2
      exact .inr (.inr ⟨r, by rw [h1, h2.1]; simp⟩)

theorem DatagramAt.order {l : List Act} {i s i' s' : Nat} {d d' : Bytes} (h : DatagramAt l i s d) (h' : DatagramAt l i' s' d') (hi : i ≤ i') : s ≤ s' := by
  obtain ⟨pre, dst, ok, post, e, h1, h2⟩ := h
  obtain ⟨pre', dst', ok', post', e', h1', h2'⟩ := h'
  rcases cut_compare e e' with ⟨r, hr⟩ | ⟨rfl, _⟩ | ⟨r, hr⟩
  · rw [← h2, ← h2', ← hr, waitsOf_append, waitsOf_append]; omega
  · omega
  · rw [← hr, datagramsOf_append, datagramsOf_append, List.length_append, List.length_append] at h1
    simp [datagramsOf] at h1 h1'
    omega

/-- A datagram that was sent after at most as many waits as there are in `l` was sent in `l`, if `l` ends before a wait. -/
theorem DatagramAt.within {l l' : List Act} {t : Option U64} {i s : Nat} {d : Bytes} (h : DatagramAt l' i s d) (hp : l ++ [.wait t] <+: l') :
    DatagramAt l i s d ∨ waitsOf l < s ∧ (datagramsOf l).length ≤ i := by
  obtain ⟨pre, dst, ok, post, e, h1, h2⟩ := h
  obtain ⟨r, hr⟩ := hp
  have e' : l' = l ++ .wait t :: r := by rw [← hr]; simp
  rcases cut_compare e e' with ⟨r, hr⟩ | ⟨_, h⟩ | ⟨r, hr⟩
  · exact .inl ⟨pre, dst, ok, r, by rw [← hr]; simp, h1, h2⟩
  · cases h
  · refine .inr ⟨?_, ?_⟩
    · rw [← h2, ← hr, waitsOf_append, waitsOf_append]; simp [waitsOf]; omega
    · rw [← h1, ← hr, datagramsOf_append, datagramsOf_append]; simp [datagramsOf]

theorem DatagramAt.index {l : List Act} {i s : Nat} {d : Bytes} (h : DatagramAt l i s d) : i < (datagramsOf l).length := by
  obtain ⟨pre, dst, ok, post, rfl, h1, h2⟩ := h
  rw [datagramsOf_append, List.length_append, h1]
  simp [datagramsOf]

theorem DatagramAt.waits {l : List Act} {i s : Nat} {d : Bytes} (h : DatagramAt l i s d) : s ≤ waitsOf l := by
  obtain ⟨pre, dst, ok, post, rfl, h1, h2⟩ := h
  rw [waitsOf_append, h2]; omega

theorem DatagramAt.snoc_wait {l : List Act} {t : Option U64} {i s : Nat} {d : Bytes} (h : DatagramAt (l ++ [.wait t]) i s d) : DatagramAt l i s d := by
  rcases h.within (List.prefix_refl _) with h' | ⟨h1, h2⟩
  · exact h'
  · have := h.index
    rw [datagramsOf_append] at this
    simp [datagramsOf] at this h2
    omega

theorem DatagramAt.snoc_send {l : List Act} {dst : Addr} {b d : Bytes} {ok : Bool} {i s : Nat} (h : DatagramAt (l ++ [.send dst b ok]) i s d) :
    DatagramAt l i s d ∨ d = b ∧ s = waitsOf l := by
  obtain ⟨pre, dst', ok', post, e, h1, h2⟩ := h
  rcases cut_compare e (rfl : l ++ [.send dst b ok] = l ++ .send dst b ok :: []) with ⟨r, hr⟩ | ⟨rfl, h⟩ | ⟨r, hr⟩
  · exact .inl ⟨pre, dst', ok', r, by rw [← hr]; simp, h1, h2⟩
  · cases h; exact .inr ⟨rfl, h2.symm⟩
  · rw [← hr] at e
    have := congrArg List.length e
    simp at this

/-- After `x0`, there were `n` waits, and each datagram that was sent after `s` waits is as `P s` says. -/
def Tells (x0 : World) (P : Nat → Bytes → Prop) (n : Nat) (w : World) : Prop :=
  ∃ l, w.log = x0.log ++ l ∧ waitsOf l = n ∧ ∀ i s d, DatagramAt l i s d → P s d

section
variable {x0 w w' : World} {P : Nat → Bytes → Prop} {n : Nat}

theorem Tells.start : Tells x0 P 0 x0 := by
  refine ⟨[], by simp, rfl, ?_⟩
  rintro i s d ⟨pre, dst, ok, post, e, _⟩
  have := congrArg List.length e
  simp at this

theorem Tells.same (h : Tells x0 P n w) (hl : w'.log = w.log) : Tells x0 P n w' := by
  unfold Tells at h ⊢; rw [hl]; exact h

theorem Tells.wait (h : Tells x0 P n w) {t : Option U64} (hl : w'.log = w.log ++ [.wait t]) : Tells x0 P (n + 1) w' := by
  obtain ⟨l, h1, h2, h3⟩ := h
  exact ⟨l ++ [.wait t], by rw [hl, h1]; simp, by rw [waitsOf_append, h2]; rfl, fun i s d h => h3 i s d h.snoc_wait⟩

theorem Tells.send (h : Tells x0 P n w) {dst : Addr} {b : Bytes} {ok : Bool} (hl : w'.log = w.log ++ [.send dst b ok]) (hb : P n b) : Tells x0 P n w' := by
  obtain ⟨l, h1, h2, h3⟩ := h
  refine ⟨l ++ [.send dst b ok], by rw [hl, h1]; simp, by rw [waitsOf_append, h2]; rfl, fun i s d h => ?_⟩
  rcases h.snoc_send with h | ⟨rfl, rfl⟩
  · exact h3 i s d h
  · rw [h2]; exact hb

end

/-! ### Counting the datagrams with the expected numbers -/

/-- How many of the numbers from `k` on, at most `total`, the first `n` datagrams from number `x` on carried, one after the other; `num` reads the number of a packet. -/
def counted (E : Env) (x : Nat) (k : U16) (total : Nat) (num : Packet → U16) : Nat → Nat
  | 0 => 0
  | n + 1 =>
    match E.net (x + n) with
    | .dgram b _ =>
      if counted E x k total num n < total ∧ num ⟨b⟩ = k + BitVec.ofNat 16 (counted E x k total num n) then counted E x k total num n + 1
      else counted E x k total num n
    | _ => counted E x k total num n

section
variable {x : Nat} {k : U16} {total : Nat} {num : Packet → U16} {n : Nat}

theorem counted_hit {p : Packet} {src : Addr} (h : E.net (x + n) = .dgram p.bytes src) (ht : counted E x k total num n < total)
    (hn : num p = k + BitVec.ofNat 16 (counted E x k total num n)) : counted E x k total num (n + 1) = counted E x k total num n + 1 := by
  rw [counted, h]
  exact if_pos ⟨ht, hn⟩

theorem counted_miss {p : Packet} {src : Addr} (h : E.net (x + n) = .dgram p.bytes src)
    (hn : num p ≠ k + BitVec.ofNat 16 (counted E x k total num n)) : counted E x k total num (n + 1) = counted E x k total num n := by
  rw [counted, h]
  exact if_neg fun hc => hn hc.2

theorem counted_expires (h : Expires (E.net (x + n))) : counted E x k total num (n + 1) = counted E x k total num n := by
  rcases h with h | h <;> rw [counted, h]

theorem counted_step (n : Nat) : counted E x k total num (n + 1) = counted E x k total num n ∨
    counted E x k total num (n + 1) = counted E x k total num n + 1 ∧ counted E x k total num n < total ∧
      ∃ b src, E.net (x + n) = .dgram b src ∧ num ⟨b⟩ = k + BitVec.ofNat 16 (counted E x k total num n) := by
  rw [counted]
  split
  · rename_i b src h
    split
    · rename_i hc
      exact .inr ⟨rfl, hc.1, b, src, h, hc.2⟩
    · exact .inl rfl
  · exact .inl rfl

theorem counted_le (n : Nat) : counted E x k total num n ≤ total := by
  induction n with
  | zero => exact Nat.zero_le _
  | succ n ih => rcases counted_step (E := E) (x := x) (k := k) (total := total) (num := num) n with h | ⟨h, h2, _⟩ <;> omega

theorem counted_mono {m n : Nat} (h : m ≤ n) : counted E x k total num m ≤ counted E x k total num n := by
  induction h with
  | refl => exact Nat.le_refl _
  | step _ ih => 
    rename_i n _
    show _ ≤ counted E x k total num (n + 1)
    rcases counted_step (E := E) (x := x) (k := k) (total := total) (num := num) n with h | ⟨h, _⟩ <;> omega

/-- Each count was reached by a datagram with its number. -/
theorem counted_from {j : Nat} (hj : 0 < j) (h : counted E x k total num n = j) :
    ∃ m, m < n ∧ counted E x k total num m + 1 = j ∧ ∃ b src, E.net (x + m) = .dgram b src ∧ num ⟨b⟩ = k + BitVec.ofNat 16 (counted E x k total num m) := by
  induction n with
  | zero => rw [counted] at h; omega
  | succ n ih =>
    rcases counted_step (E := E) (x := x) (k := k) (total := total) (num := num) n with g | ⟨g1, g2, g3⟩
    · obtain ⟨m, h1, h2⟩ := ih (by omega)
      exact ⟨m, by omega, h2⟩
    · exact ⟨n, by omega, by omega, g3⟩

end

/-! ### Waiting for a datagram -/

theorem Expires.isTimeout {ev : NetEvent} (h : Expires ev) : ∃ e, ev = .fail e ∧ isTimeout e = true := by
  rcases h with h | h
  · exact ⟨_, h, rfl⟩
  · exact ⟨_, h, rfl⟩

theorem recvWait_expires {w w' : World} (h : Expires (E.net w.nNet)) {fuel retries : Nat} (hr : retries < w.s.maxRetries.toNat)
    (hh : handleReceiveTimeout E (w.waited w.s.patience) = (.ok (), w')) : recvWait E (fuel + 1) retries w = recvWait E fuel (retries + 1) w' := by
  obtain ⟨e, h1, h2⟩ := h.isTimeout
  rw [recvWait]
  msimp
  rw [if_neg (by omega), andThen_eq (udpRecv_fail h1 _ _)]
  simp only [h2, if_true]
  exact andThen_eq hh

theorem recvWait_waits (fuel : Nat) {retries : Nat} {w : World} (hr : retries < w.s.maxRetries.toNat) :
    w.log ++ [.wait w.s.patience] <+: (recvWait E (fuel + 1) retries w).2.log := by
  rw [recvWait]
  msimp
  rw [if_neg (by omega)]
  have hu : (udpRecv E (if w.s.state ≠ .new then some w.s.congTimeout else none) (BUF_SIZE + HEADER_SIZE) w).2 = w.waited w.s.patience := by
    rcases hn : E.net w.nNet with ⟨b, src⟩ | k | _
    · rw [udpRecv_dgram hn]; rfl
    · rw [udpRecv_fail hn]; rfl
    · rw [udpRecv_never hn]; rfl
  have hg : ∀ r : Except ErrorKind (Bytes × Addr), Grows (match r with
      | .ok x => (M.ret x : M (Bytes × Addr))
      | .error k => if isTimeout k then M.andThen (handleReceiveTimeout E) fun _ => recvWait E fuel (retries + 1) else M.throw (.os k)) := by
    intro r
    cases r with
    | ok x => exact .ret
    | error k => exact .ite (.andThen grows_handleReceiveTimeout fun _ => grows_recvWait fuel _) .throw
  unfold M.andThen
  rcases hm : udpRecv E (if w.s.state ≠ .new then some w.s.congTimeout else none) (BUF_SIZE + HEADER_SIZE) w with ⟨r, w1⟩
  rw [hm] at hu
  have hl : w1.log = w.log ++ [.wait w.s.patience] := by
    have : w1 = _ := hu
    rw [this]; rfl
  rw [← hl]
  cases r with
  | ok a => exact hg a w1
  | err e => exact List.prefix_refl _
  | panic => exact List.prefix_refl _
  | pending => exact List.prefix_refl _

theorem Prog.eventually {B : World → Prop} {m m' : Nat → M α} {w w1 : World} {Q : α → World → Prop} (h : Prog B m w1 Q) {F : Nat} (hm : ∀ n, F ≤ n → m' n w = m n w1) :
    Prog B m' w Q := by
  rcases h with ⟨a, w', h1, G, h2⟩ | ⟨G, h⟩
  · exact .inl ⟨a, w', h1, F + G, fun n hn => (hm n (by omega)).trans (h2 n (by omega))⟩
  · exact .inr ⟨F + G, fun n hn => by rw [hm n (by omega)]; exact h n (by omega)⟩

/-- Waiting: `X n` holds when `n` waits have ended.  Until the wait `N`, of `R` waits one ends with a datagram, so `recv` does not give up. -/
theorem prog_recv_lossy {B : World → Prop} {X : Nat → World → Prop} {x N R : Nat} {len : Nat} {Q : Bytes × Addr → World → Prop}
    (hnet : ∀ n w, X n w → w.nNet = x + n) (htr : ∀ n w, X n w → w.s.maxRetries.toNat = R)
    (hbad : ∀ w v t, X N w → w.log ++ [.wait t] <+: v.log → B v)
    (hends : ∀ n, Comes (E.net (x + n)) ∨ Expires (E.net (x + n)))
    (hoft : ∀ n, n + R ≤ N → ∃ j, j < R ∧ Comes (E.net (x + n + j)))
    (htime : ∀ n w, n < N → X n w → Expires (E.net (x + n)) → ∃ w', handleReceiveTimeout E (w.waited w.s.patience) = (.ok (), w') ∧ X (n + 1) w')
    (harr : ∀ n w, n < N → X n w → Comes (E.net (x + n)) → Prog B (fun f => recv E f len) w Q) :
    ∀ n w, n ≤ N → X n w → Prog B (fun f => recv E f len) w Q := by
  intro n0 w0 hn0 h0
  have key : ∀ d r w, n0 + r + d = N → X (n0 + r) w → (∀ j, j < r → Expires (E.net (x + n0 + j))) → (∀ f, recvWait E (f + r) 0 w0 = recvWait E f r w) →
      Prog B (fun f => recv E f len) w0 Q := by
    intro d
    have hlt : ∀ r, n0 + r ≤ N → (∀ j, j < r → Expires (E.net (x + n0 + j))) → r < R := by
      intro r hr hx
      refine Nat.lt_of_not_le fun hc => ?_
      obtain ⟨j, h1, b, src, h2⟩ := hoft n0 (by omega)
      rcases hx j (by omega) with h | h <;> rw [h2] at h <;> cases h
    induction d with
    | zero =>
      intro r w hd hx hex hrec
      have hr := hlt r (by omega) hex
      refine .inr ⟨r + 2, fun f hf => ?_⟩
      obtain ⟨g, rfl⟩ : ∃ g, f = g + 1 + r + 1 := ⟨f - r - 2, by omega⟩
      refine hbad w _ w.s.patience (by rw [← hd]; exact hx) ?_
      refine (recvWait_waits (E := E) g (retries := r) (by rw [htr _ _ hx]; exact hr)).trans ?_
      rw [← hrec (g + 1)]
      show _ <+: (recv E (g + 1 + r + 1) len w0).2.log
      rw [recv, recvBody, bind_def]
      rcases hm : recvWait E (g + 1 + r) 0 w0 with ⟨a, w1⟩
      unfold M.andThen
      rw [hm]
      cases a with
      | ok a => exact Grows.bind .orPanic (fun y => by
          cases y with
          | error e => exact .bind .getS fun _ => .ret
          | ok pkt => exact grows_recvPacket (grows_recv _ _) _ _ _ _) w1
      | err e => exact List.prefix_refl _
      | panic => exact List.prefix_refl _
      | pending => exact List.prefix_refl _
    | succ d ih =>
      intro r w hd hx hex hrec
      have hr := hlt r (by omega) hex
      rcases hends (n0 + r) with hc | he
      · refine (harr _ w (by omega) hx hc).eventually (F := r + 2) fun f hf => ?_
        obtain ⟨g, rfl⟩ : ∃ g, f = g + 1 + r + 1 := ⟨f - r - 2, by omega⟩
        obtain ⟨b, src, hc⟩ := hc
        rw [← hnet _ _ hx] at hc
        have e1 : recvWait E (g + 1 + r) 0 w0 = _ := (hrec (g + 1)).trans (recvWait_dgram hc (by rw [htr _ _ hx]; exact hr))
        have e2 : recvWait E (g + r + 1) 0 w = _ := recvWait_dgram hc (by rw [htr _ _ hx]; omega)
        rw [show g + r + 1 = g + 1 + r by omega] at e2
        simp only [recv, recvBody]
        rw [bind_def, andThen_eq e1, andThen_eq e2]
      · obtain ⟨w', h1, h2⟩ := htime _ w (by omega) hx he
        refine ih (r + 1) w' (by omega) (by rw [← Nat.add_assoc]; exact h2) (fun j hj => ?_) fun f => ?_
        · by_cases hjr : j < r
          · exact hex j hjr
          · rw [show j = r by omega, Nat.add_assoc]; exact he
        · rw [show f + (r + 1) = f + 1 + r by omega, hrec (f + 1)]
          exact recvWait_expires (by rw [hnet _ _ hx]; exact he) (by rw [htr _ _ hx]; exact hr) h1
  exact key (N - n0) 0 w0 (by omega) h0 (by omega) fun f => rfl

end Utp
