import Verif.Lemmas.Eval
import Verif.Spec.Run
/-!
# Reading a packet in pieces
-/

namespace Utp
open M

variable {E : Env} {k m : Nat}

/-- What is left of a packet, cut in two. -/
theorem takePending_take {s : Socket} (hk : s.pending.drop k ≠ []) :
    s.takePending k = (s.pending.take k, { s with pending := s.pending.drop k }) ∧
    s.takePending (k + m) = (s.pending.take k ++ (({ s with pending := s.pending.drop k } : Socket).takePending m).1,
      (({ s with pending := s.pending.drop k } : Socket).takePending m).2) := by
  have hl : 0 < (s.pending.drop k).length := List.length_pos_iff.mpr hk
  rw [List.length_drop] at hl
  have h1 : ¬ (s.pending.take k).length = s.pending.length := by rw [List.length_take]; omega
  have ha : s.pending.take (k + m) = s.pending.take k ++ (s.pending.drop k).take m := List.take_add ..
  refine ⟨by unfold Socket.takePending; simp only [if_neg h1], ?_⟩
  unfold Socket.takePending
  by_cases h : s.pending.length ≤ k + m
  · have h2 : (s.pending.take (k + m)).length = s.pending.length := by rw [List.length_take]; omega
    have h3 : ((s.pending.drop k).take m).length = (s.pending.drop k).length := by rw [List.length_take, List.length_drop]; omega
    simp only [if_pos h2, if_pos h3]
    rw [ha]
  · have h2 : ¬ (s.pending.take (k + m)).length = s.pending.length := by rw [List.length_take]; omega
    have h3 : ¬ ((s.pending.drop k).take m).length = (s.pending.drop k).length := by rw [List.length_take, List.length_drop]; omega
    simp only [if_neg h2, if_neg h3, List.drop_drop]
    rw [ha]

/-- The first packet, cut in two. -/
theorem takeHead_take {s : Socket} {pl : Bytes} (hs : s.pending = []) (hk : pl.drop k ≠ []) :
    s.takeHead pl k = { s with pending := pl.drop k } ∧
    pl.take (k + m) = pl.take k ++ (({ s with pending := pl.drop k } : Socket).takePending m).1 ∧
    s.takeHead pl (k + m) = (({ s with pending := pl.drop k } : Socket).takePending m).2 := by
  have hl : 0 < (pl.drop k).length := List.length_pos_iff.mpr hk
  rw [List.length_drop] at hl
  have h1 : ¬ (pl.take k).length = pl.length := by rw [List.length_take]; omega
  have ha : pl.take (k + m) = pl.take k ++ (pl.drop k).take m := List.take_add ..
  refine ⟨by unfold Socket.takeHead; rw [if_neg h1], ?_⟩
  unfold Socket.takePending Socket.takeHead
  by_cases h : pl.length ≤ k + m
  · have h2 : (pl.take (k + m)).length = pl.length := by rw [List.length_take]; omega
    have h3 : ((pl.drop k).take m).length = (pl.drop k).length := by rw [List.length_take, List.length_drop]; omega
    simp only [if_pos h2, if_pos h3]
    refine ⟨ha, congrArg Socket.advanceIncoming ?_⟩
    cases s
    simp only at hs
    subst hs
    rfl
  · have h2 : ¬ (pl.take (k + m)).length = pl.length := by rw [List.length_take]; omega
    have h3 : ¬ ((pl.drop k).take m).length = (pl.drop k).length := by rw [List.length_take, List.length_drop]; omega
    simp only [if_neg h2, if_neg h3, List.drop_drop]
    exact ⟨ha, trivial⟩

theorem drop_of_take {l : Bytes} (h : ¬ (l.take k).length = l.length) : l.drop k ≠ [] := by
  intro hd
  apply h
  have := congrArg List.length hd
  rw [List.length_drop, List.length_nil] at this
  rw [List.length_take]
  omega

theorem flushIncoming_cut (hk : 0 < k) {w u : World} {b : Bytes} (h : flushIncoming E k w = (.ok b, u)) :
    (b = [] → flushIncoming E (k + m) w = (.ok [], u)) ∧
    (u.s.pending ≠ [] → b ≠ [] ∧ flushIncoming E (k + m) w = (.ok (b ++ (u.s.takePending m).1), u.setS (u.s.takePending m).2)) := by
  have hne : ∀ l : Bytes, l.take k = [] → l = [] := by
    intro l hl
    rcases List.take_eq_nil_iff.mp hl with h0 | h0
    · omega
    · exact h0
  unfold flushIncoming at h ⊢
  simp only [bind_def, M.andThen, getS, pure_def] at h ⊢
  by_cases hp : w.s.pending ≠ []
  · rw [if_pos hp] at h ⊢
    simp only [modS, M.ret, M.andThen] at h ⊢
    cases h
    have hb : (w.s.takePending k).1 = w.s.pending.take k := by unfold Socket.takePending; simp only; split <;> rfl
    refine ⟨fun h0 => absurd (hne _ (hb.symm.trans h0)) hp, fun hu => ⟨fun h0 => hp (hne _ (hb.symm.trans h0)), ?_⟩⟩
    have hd : w.s.pending.drop k ≠ [] := by
      refine drop_of_take fun hl => ?_
      have hl' : ¬ (w.s.takePending k).2.pending ≠ [] := by
        unfold Socket.takePending
        simp only [if_pos hl]
        unfold Socket.advanceIncoming
        split <;> simp
      exact hl' hu
    obtain ⟨e1, e2⟩ := takePending_take (m := m) hd
    rw [e1, e2]
    rfl
  · rw [if_neg hp] at h ⊢
    have hp' : w.s.pending = [] := Decidable.not_not.mp hp
    cases e : w.s.incoming with
    | nil =>
      rw [e] at h
      cases h
      exact ⟨fun _ => rfl, fun hu => absurd hp' hu⟩
    | cons p rest =>
      rw [e] at h
      simp only at h ⊢
      unfold overflowIf at h ⊢
      split at h
      · cases h
      · rename_i ho
        rw [if_neg ho]
        have hr : (M.ret () : M Unit) w = (.ok (), w) := rfl
        rw [andThen_eq hr] at h ⊢
        split at h
        · rename_i hc
          rw [if_pos hc]
          cases hpl : p.payload with
          | none => rw [hpl] at h; cases h
          | some pl =>
            rw [hpl] at h
            have hr : orPanic (some pl) w = (.ok pl, w) := rfl
            rw [andThen_eq hr] at h ⊢
            change ((.ok (pl.take k), w.setS (w.s.takeHead pl k)) : Res Bytes × World) = _ at h
            cases h
            refine ⟨fun h0 => ?_, fun hu => ?_⟩
            · have := hne _ h0
              subst this
              have ht : ∀ j, w.s.takeHead [] j = w.s.advanceIncoming := fun j => by unfold Socket.takeHead; rw [if_pos (by simp)]
              show ((.ok (([] : Bytes).take (k + m)), w.setS (w.s.takeHead [] (k + m))) : Res Bytes × World) = _
              rw [ht, ht, List.take_nil]
            · have hd : pl.drop k ≠ [] := by
                refine drop_of_take fun hl => ?_
                have hl' : ¬ (w.s.takeHead pl k).pending ≠ [] := by
                  unfold Socket.takeHead
                  rw [if_pos hl]
                  unfold Socket.advanceIncoming
                  split <;> simp [hp']
                exact hl' hu
              obtain ⟨e1, e2, e3⟩ := takeHead_take (m := m) hp' hd
              refine ⟨fun h0 => hd (by rw [hne _ h0, List.drop_nil]), ?_⟩
              show ((.ok (pl.take (k + m)), w.setS (w.s.takeHead pl (k + m))) : Res Bytes × World) = _
              rw [e1, e2, e3]
              rfl
        · rename_i hc
          rw [if_neg hc]
          cases h
          exact ⟨fun _ => rfl, fun hu => absurd hp' hu⟩

/-- The second computation is the first followed by a read of `m` bytes of the rest, if there is a rest; and it is the first if that read nothing. -/
def CutM (m : Nat) (x y : M (Bytes × Addr)) : Prop := ∀ w b src u, x w = (.ok (b, src), u) →
  (b = [] → y w = (.ok ([], src), u)) ∧
  (b ≠ [] → u.s.pending ≠ [] → y w = (.ok (b ++ (u.s.takePending m).1, src), u.setS (u.s.takePending m).2))

theorem CutM.after {α : Type} {p : M α} {f f' : α → M (Bytes × Addr)} (h : ∀ a, CutM m (f a) (f' a)) : CutM m (p >>= f) (p >>= f') := by
  intro w b src u e
  simp only [bind_def, M.andThen] at e ⊢
  rcases hp : p w with ⟨r, v⟩
  rw [hp] at e
  cases r with
  | ok a => exact h a v b src u e
  | err x => cases e
  | panic => cases e
  | pending => cases e

theorem CutM.nothing (a : Addr) : CutM m (pure ([], a)) (pure ([], a)) := by
  intro w b src u e
  cases e
  exact ⟨fun _ => rfl, fun h => absurd rfl h⟩

theorem cut_flush (hk : 0 < k) (src : Addr) : CutM m (flushIncoming E k >>= fun out => pure (out, src)) (flushIncoming E (k + m) >>= fun out => pure (out, src)) := by
  intro w b s u e
  simp only [bind_def, M.andThen] at e ⊢
  rcases hp : flushIncoming E k w with ⟨r, v⟩
  rw [hp] at e
  cases r with
  | ok a =>
    obtain ⟨h1, h2⟩ := flushIncoming_cut (m := m) hk hp
    cases e
    exact ⟨fun h0 => by rw [h1 h0]; rfl, fun _ hu => by rw [(h2 hu).2]; rfl⟩
  | err x => cases e
  | panic => cases e
  | pending => cases e

theorem cut_recv (hk : 0 < k) : ∀ fuel, CutM m (recv E fuel k) (recv E fuel (k + m))
  | 0 => by intro w b s u e; cases e
  | fuel + 1 => by
    unfold recv recvBody
    refine CutM.after fun x => CutM.after fun r => ?_
    cases r with
    | error e => exact CutM.after fun s => CutM.nothing _
    | ok p =>
      unfold recvPacket
      exact CutM.after fun _ => CutM.after fun _ => CutM.after fun _ => CutM.after fun _ => cut_flush hk _

theorem cut_recvFromLoop (hk : 0 < k) (fuel : Nat) : ∀ n, CutM m (recvFromLoop E fuel k n) (recvFromLoop E fuel (k + m) n)
  | 0 => by intro w b s u e; cases e
  | n + 1 => by
    unfold recvFromLoop
    refine CutM.after fun s => ?_
    by_cases hs : s.state = .closed
    · rw [if_pos hs, if_pos hs]
      exact CutM.nothing _
    · rw [if_neg hs, if_neg hs]
      intro w b src u e
      simp only [bind_def, M.andThen] at e ⊢
      rcases hp : recv E fuel k w with ⟨r, v⟩
      rw [hp] at e
      cases r with
      | err x => cases e
      | panic => cases e
      | pending => cases e
      | ok a =>
        obtain ⟨o, a⟩ := a
        obtain ⟨h1, h2⟩ := cut_recv (m := m) hk fuel w o a v hp
        by_cases ho : o = []
        · rw [h1 ho]
          simp only [ho, if_true] at e ⊢
          exact cut_recvFromLoop hk fuel n v b src u e
        · simp only [if_neg ho] at e
          cases e
          refine ⟨fun h0 => absurd h0 ho, fun _ hu => ?_⟩
          rw [h2 ho hu]
          simp only [List.append_eq_nil_iff, ho, false_and, if_false]
          rfl

theorem cut_recvFrom (hk : 0 < k) (fuel : Nat) : CutM m (recvFrom E fuel k) (recvFrom E fuel (k + m)) := by
  intro w b src u e
  unfold recvFrom at e ⊢
  simp only [bind_def, M.andThen] at e ⊢
  rcases hp : flushIncoming E k w with ⟨r, v⟩
  rw [hp] at e
  cases r with
  | err x => cases e
  | panic => cases e
  | pending => cases e
  | ok o =>
    obtain ⟨h1, h2⟩ := flushIncoming_cut (m := m) hk hp
    by_cases ho : o = []
    · rw [h1 ho]
      simp only [getS, ho, ne_eq, not_true_eq_false, if_false] at e ⊢
      by_cases hr : v.s.state = .resetReceived
      · rw [if_pos hr] at e
        cases e
      · rw [if_neg hr] at e ⊢
        exact cut_recvFromLoop hk fuel fuel v b src u e
    · simp only [getS, ne_eq, ho, not_false_eq_true, if_true] at e
      cases e
      refine ⟨fun h0 => absurd h0 ho, fun _ hu => ?_⟩
      rw [(h2 hu).2]
      simp only [getS, ne_eq, List.append_eq_nil_iff, ho, false_and, not_false_eq_true, if_true]
      have hc : ∀ s : Socket, (s.takePending m).2.connectedTo = s.connectedTo := by
        intro s
        unfold Socket.takePending
        simp only
        split
        · unfold Socket.advanceIncoming
          split <;> rfl
        · rfl
      show ((.ok (_, (u.s.takePending m).2.connectedTo), _) : Res (Bytes × Addr) × World) = _
      rw [hc]

end Utp
