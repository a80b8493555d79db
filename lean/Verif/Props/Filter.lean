import Mathlib.Algebra.Order.Ring.Rat
import Mathlib.Tactic.Linarith
import Mathlib.Tactic.Ring
import Verif.Spec.Filter
import Verif.Socket
/-!
# The delay filter (C13)
-/

namespace Utp

theorem ewmaRat_snoc (xs : List Rat) (x a : Rat) (h : xs ≠ []) :
    ewmaRat (xs ++ [x]) a = a * x + (1 - a) * ewmaRat xs a := by
  cases xs with
  | nil => exact absurd rfl h
  | cons y ys => simp [ewmaRat, List.foldl_append]

/-- The average of no samples is 0. -/
theorem C13_none (a : Rat) : ewmaRat [] a = 0 := rfl

/-- The average of one sample is the sample. -/
theorem C13_one (x a : Rat) : ewmaRat [x] a = x := rfl

theorem list_snoc {α : Type} (l : List α) (h : l ≠ []) : ∃ xs x, l = xs ++ [x] :=
  ⟨l.dropLast, l.getLast h, (List.dropLast_concat_getLast h).symm⟩

/-- The average lies between any lower and any upper bound of the samples. -/
theorem C13_between (a lo hi : Rat) (h0 : 0 ≤ a) (h1 : a ≤ 1) : ∀ (xs : List Rat), xs ≠ [] → (∀ x ∈ xs, lo ≤ x ∧ x ≤ hi) →
    lo ≤ ewmaRat xs a ∧ ewmaRat xs a ≤ hi := by
  intro xs
  generalize hn : xs.length = n
  induction n generalizing xs with
  | zero => intro h; exact absurd (List.length_eq_zero_iff.mp hn) h
  | succ n ih =>
    intro hne hb
    obtain ⟨ys, y, rfl⟩ := list_snoc xs hne
    have hy := hb y (by simp)
    by_cases hys : ys = []
    · subst hys; exact hy
    · obtain ⟨g1, g2⟩ := ih ys (by simpa using hn) hys (fun x hx => hb x (by simp [hx]))
      rw [ewmaRat_snoc ys y a hys]
      have h1' : 0 ≤ 1 - a := by linarith
      constructor
      · have := mul_le_mul_of_nonneg_left hy.1 h0
        have := mul_le_mul_of_nonneg_left g1 h1'
        linarith
      · have := mul_le_mul_of_nonneg_left hy.2 h0
        have := mul_le_mul_of_nonneg_left g2 h1'
        linarith

/-- The average lies between the smallest and the largest sample. -/
theorem C13_min_max (a : Rat) (h0 : 0 ≤ a) (h1 : a ≤ 1) (xs : List Rat) (hne : xs ≠ []) :
    (∃ x ∈ xs, (∀ y ∈ xs, x ≤ y) ∧ x ≤ ewmaRat xs a) ∧ ∃ x ∈ xs, (∀ y ∈ xs, y ≤ x) ∧ ewmaRat xs a ≤ x := by
  have hmin : ∀ l : List Rat, l ≠ [] → (∃ x ∈ l, ∀ y ∈ l, x ≤ y) ∧ ∃ x ∈ l, ∀ y ∈ l, y ≤ x := by
    intro l
    induction l with
    | nil => intro h; exact absurd rfl h
    | cons z zs ih =>
      intro _
      by_cases hz : zs = []
      · subst hz; exact ⟨⟨z, by simp, by simp⟩, ⟨z, by simp, by simp⟩⟩
      · obtain ⟨⟨m, hm, hm'⟩, ⟨M, hM, hM'⟩⟩ := ih hz
        constructor
        · rcases le_total z m with h | h
          · exact ⟨z, by simp, fun y hy => by
              rcases List.mem_cons.mp hy with rfl | hy
              · exact le_refl _
              · exact le_trans h (hm' y hy)⟩
          · exact ⟨m, List.mem_cons_of_mem _ hm, fun y hy => by
              rcases List.mem_cons.mp hy with rfl | hy
              · exact h
              · exact hm' y hy⟩
        · rcases le_total z M with h | h
          · exact ⟨M, List.mem_cons_of_mem _ hM, fun y hy => by
              rcases List.mem_cons.mp hy with rfl | hy
              · exact h
              · exact hM' y hy⟩
          · exact ⟨z, by simp, fun y hy => by
              rcases List.mem_cons.mp hy with rfl | hy
              · exact le_refl _
              · exact le_trans (hM' y hy) h⟩
  obtain ⟨⟨m, hm, hm'⟩, ⟨M, hM, hM'⟩⟩ := hmin xs hne
  obtain ⟨g1, g2⟩ := C13_between a m M h0 h1 xs hne (fun x hx => ⟨hm' x hx, hM' x hx⟩)
  exact ⟨⟨m, hm, hm', g1⟩, ⟨M, hM, hM', g2⟩⟩

theorem weights_length (a : Rat) : ∀ n, (weights a n).length = n
  | 0 => rfl
  | 1 => rfl
  | n + 2 => by simp [weights, weights_length a (n + 1)]

theorem dot_snoc : ∀ (xs ys : List Rat) (x y : Rat), xs.length = ys.length → dot (xs ++ [x]) (ys ++ [y]) = dot xs ys + x * y
  | [], [], x, y, _ => by simp [dot]
  | [], _ :: _, _, _, h => by simp at h
  | _ :: _, [], _, _, h => by simp at h
  | u :: us, v :: vs, x, y, h => by
    simp only [List.cons_append, dot]
    rw [dot_snoc us vs x y (by simpa using h)]
    ring

theorem dot_scale (c : Rat) : ∀ (xs ys : List Rat), dot (xs.map (c * ·)) ys = c * dot xs ys
  | [], _ => by simp [dot]
  | _ :: _, [] => by simp [dot]
  | u :: us, v :: vs => by
    simp only [List.map_cons, dot]
    rw [dot_scale c us vs]
    ring

/-- The average is the weighted sum of the samples, with weights that are non-negative and add up to 1. -/
theorem C13_weighted (a : Rat) (h0 : 0 ≤ a) (h1 : a ≤ 1) (xs : List Rat) :
    ewmaRat xs a = dot (weights a xs.length) xs ∧ (∀ k ∈ weights a xs.length, 0 ≤ k) ∧
    (xs ≠ [] → (weights a xs.length).sum = 1) := by
  generalize hn : xs.length = n
  induction n generalizing xs with
  | zero =>
    have := List.length_eq_zero_iff.mp hn
    subst this
    exact ⟨rfl, by simp [weights], fun h => absurd rfl h⟩
  | succ n ih =>
    have hne : xs ≠ [] := by intro h; simp [h] at hn
    obtain ⟨ys, y, rfl⟩ := list_snoc xs hne
    have hl : ys.length = n := by simpa using hn
    cases n with
    | zero =>
      have := List.length_eq_zero_iff.mp hl
      subst this
      simp [weights, ewmaRat, dot]
    | succ m =>
      obtain ⟨g1, g2, g3⟩ := ih ys hl
      have hys : ys ≠ [] := by intro h; simp [h] at hl
      have h1' : 0 ≤ 1 - a := by linarith
      refine ⟨?_, ?_, ?_⟩
      · rw [ewmaRat_snoc ys y a hys, weights, dot_snoc _ _ _ _ (by simp [weights_length, hl]), dot_scale, g1]
        ring
      · intro k hk
        simp only [weights, List.mem_append, List.mem_map, List.mem_singleton] at hk
        rcases hk with ⟨k', hk', rfl⟩ | rfl
        · exact mul_nonneg h1' (g2 k' hk')
        · exact h0
      · intro _
        have hs : ∀ l : List Rat, (l.map ((1 - a) * ·)).sum = (1 - a) * l.sum := by
          intro l
          induction l with
          | nil => simp
          | cons z zs ih => simp only [List.map_cons, List.sum_cons, ih]; ring
        rw [weights, List.sum_append, hs, g3 hys]
        simp

/-- A new measurement: the samples older (in microseconds) than a hundred times the round trip estimate (in milliseconds) are removed from the
front, up to the first one that is not; the new one is added at the end. -/
theorem C13_window (s : Socket) (v : Int) (now : U32) :
    ∃ old kept, s.currDelays = old ++ kept ∧ (s.updateCurrentDelay v now).currDelays = kept ++ [(now, v)] ∧
      (∀ d ∈ old, tsSub now d.1 > s.rtt * 100) ∧ (∀ d rest, kept = d :: rest → tsSub now d.1 ≤ s.rtt * 100) := by
  refine ⟨s.currDelays.takeWhile fun d => decide (tsSub now d.1 > s.rtt * 100),
    s.currDelays.dropWhile fun d => decide (tsSub now d.1 > s.rtt * 100), (List.takeWhile_append_dropWhile ..).symm, rfl, ?_, ?_⟩
  · intro d
    have h2 : ∀ l : List (U32 × Int), d ∈ l.takeWhile (fun d => decide (tsSub now d.1 > s.rtt * 100)) →
        tsSub now d.1 > s.rtt * 100 := by
      intro l
      induction l with
      | nil => simp
      | cons x xs ih =>
        rw [List.takeWhile_cons]
        split
        · rename_i hx
          intro h
          rcases List.mem_cons.mp h with rfl | h
          · simpa using hx
          · exact ih h
        · simp
    exact h2 _
  · intro d rest h
    have h2 : ∀ l : List (U32 × Int), l.dropWhile (fun d => decide (tsSub now d.1 > s.rtt * 100)) = d :: rest →
        tsSub now d.1 ≤ s.rtt * 100 := by
      intro l
      induction l with
      | nil => simp
      | cons x xs ih =>
        rw [List.dropWhile_cons]
        split
        · exact ih
        · rename_i hx
          intro h
          simp only [List.cons.injEq] at h
          rw [← h.1]
          simpa using hx
    exact h2 _ h

/-- Three samples. -/
example : ewmaRat [4, 10, 1] (333 / 1000) = dot (weights (333 / 1000) 3) [4, 10, 1] ∧ 1 ≤ ewmaRat [4, 10, 1] (333 / 1000) ∧
    ewmaRat [4, 10, 1] (333 / 1000) ≤ 10 := by decide +kernel

/-- A window of which the oldest sample is removed. -/
example : ∃ s : Socket, s.currDelays = [(0, 3), (90, 4)] ∧ s.rtt = 1 ∧ (s.updateCurrentDelay 5 150).currDelays = [(90, 4), (150, 5)] :=
  ⟨{ Socket.fromRawParts ⟨false, 0⟩ ⟨false, 1⟩ 7 with currDelays := [(0, 3), (90, 4)], rtt := 1 }, rfl, rfl, rfl⟩

end Utp
