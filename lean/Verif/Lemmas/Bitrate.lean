import Verif.Spec.Probe

/-!
# Lemmas about the loops of GetMaxBitrate
-/

namespace Mp4.Props

open Mp4

/-- size of the first samples -/
def bytesTo (l : List Sample) (i : Nat) : Nat := bytesOf (l.take i)
/-- duration of the first samples -/
def ticksTo (l : List Sample) (i : Nat) : Nat := ticksOf (l.take i)

theorem sum_append_nat (a b : List Nat) : (a ++ b).sum = a.sum + b.sum := List.sum_append

theorem ticks_window (l : List Sample) (b e : Nat) : ticksOf (window l b e) = ticksTo l e - ticksTo l b := by
  unfold ticksTo window
  have h1 : ticksOf (l.take e) = ticksOf ((l.take e).take b) + ticksOf ((l.take e).drop b) := by
    unfold ticksOf
    rw [← sum_append_nat, ← List.map_append, List.take_append_drop]
  rw [List.take_take] at h1
  by_cases h : b ≤ e
  · rw [Nat.min_eq_left h] at h1
    omega
  · have h2 : ticksOf (l.take b) = ticksOf ((l.take b).take e) + ticksOf ((l.take b).drop e) := by
      unfold ticksOf
      rw [← sum_append_nat, ← List.map_append, List.take_append_drop]
    rw [List.take_take, Nat.min_eq_left (by omega)] at h2
    rw [Nat.min_eq_right (by omega)] at h1
    omega

theorem bytes_window (l : List Sample) (b e : Nat) : bytesOf (window l b e) = bytesTo l e - bytesTo l b := by
  unfold bytesTo window
  have h1 : bytesOf (l.take e) = bytesOf ((l.take e).take b) + bytesOf ((l.take e).drop b) := by
    unfold bytesOf
    rw [← sum_append_nat, ← List.map_append, List.take_append_drop]
  rw [List.take_take] at h1
  by_cases h : b ≤ e
  · rw [Nat.min_eq_left h] at h1
    omega
  · have h2 : bytesOf (l.take b) = bytesOf ((l.take b).take e) + bytesOf ((l.take b).drop e) := by
      unfold bytesOf
      rw [← sum_append_nat, ← List.map_append, List.take_append_drop]
    rw [List.take_take, Nat.min_eq_left (by omega)] at h2
    rw [Nat.min_eq_right (by omega)] at h1
    omega

theorem ticksTo_succ {l : List Sample} {i : Nat} (h : i < l.length) : ticksTo l (i + 1) = ticksTo l i + l[i].timeDelta := by
  unfold ticksTo ticksOf
  rw [List.take_add_one, List.getElem?_eq_getElem h]
  simp only [Option.toList_some, List.map_append, List.map_cons, List.map_nil, sum_append_nat, List.sum_cons, List.sum_nil, Nat.add_zero]

theorem bytesTo_succ {l : List Sample} {i : Nat} (h : i < l.length) : bytesTo l (i + 1) = bytesTo l i + l[i].size := by
  unfold bytesTo bytesOf
  rw [List.take_add_one, List.getElem?_eq_getElem h]
  simp only [Option.toList_some, List.map_append, List.map_cons, List.map_nil, sum_append_nat, List.sum_cons, List.sum_nil, Nat.add_zero]

theorem ticksTo_le {l : List Sample} {i j : Nat} (h : i ≤ j) : ticksTo l i ≤ ticksTo l j := by
  unfold ticksTo
  have h1 : ticksOf (l.take j) = ticksOf ((l.take j).take i) + ticksOf ((l.take j).drop i) := by
    unfold ticksOf
    rw [← sum_append_nat, ← List.map_append, List.take_append_drop]
  rw [List.take_take, Nat.min_eq_left h] at h1
  omega

theorem bytesTo_le {l : List Sample} {i j : Nat} (h : i ≤ j) : bytesTo l i ≤ bytesTo l j := by
  unfold bytesTo
  have h1 : bytesOf (l.take j) = bytesOf ((l.take j).take i) + bytesOf ((l.take j).drop i) := by
    unfold bytesOf
    rw [← sum_append_nat, ← List.map_append, List.take_append_drop]
  rw [List.take_take, Nat.min_eq_left h] at h1
  omega

theorem ticksTo_length (l : List Sample) : ticksTo l l.length = ticksOf l := by rw [ticksTo, List.take_length]
theorem bytesTo_length (l : List Sample) : bytesTo l l.length = bytesOf l := by rw [bytesTo, List.take_length]

variable {l : List Sample} {T : Nat}

theorem growLoop_run (h1 : ticksOf l < U64) (h2 : bytesOf l < U64) (start : Nat) : ∀ (fuel stop : Nat), start ≤ stop → stop < l.length →
    l.length ≤ stop + fuel → ticksTo l stop - ticksTo l start < T →
    ∃ e, stop < e ∧ e ≤ l.length ∧
      growLoop l T fuel (bytesTo l stop - bytesTo l start) (ticksTo l stop - ticksTo l start) stop =
        .ok (bytesTo l e - bytesTo l start, ticksTo l e - ticksTo l start, e) ∧
      (T ≤ ticksTo l e - ticksTo l start ∨ e = l.length) ∧
      ∀ k, stop ≤ k → k < e → ticksTo l k - ticksTo l start < T
  | 0, stop, a1, a2, a3, a4 => by omega
  | fuel + 1, stop, a1, a2, a3, a4 => by
    unfold growLoop
    rw [List.getElem?_eq_getElem a2]
    have e1 : add64 (bytesTo l stop - bytesTo l start) l[stop].size = bytesTo l (stop + 1) - bytesTo l start := by
      have := bytesTo_succ a2
      have hle := bytesTo_le (l := l) a1
      have hmax := bytesTo_le (l := l) (show stop + 1 ≤ l.length by omega)
      rw [bytesTo_length] at hmax
      unfold add64
      rw [Nat.mod_eq_of_lt (by omega)]
      omega
    have e2 : add64 (ticksTo l stop - ticksTo l start) l[stop].timeDelta = ticksTo l (stop + 1) - ticksTo l start := by
      have := ticksTo_succ a2
      have hle := ticksTo_le (l := l) a1
      have hmax := ticksTo_le (l := l) (show stop + 1 ≤ l.length by omega)
      rw [ticksTo_length] at hmax
      unfold add64
      rw [Nat.mod_eq_of_lt (by omega)]
      omega
    simp only [e1, e2]
    split
    · next hc =>
      refine ⟨stop + 1, by omega, by omega, rfl, hc, fun k hk1 hk2 => ?_⟩
      have : k = stop := by omega
      subst this
      exact a4
    · next hc =>
      obtain ⟨e, b1, b2, b3, b4, b5⟩ := growLoop_run h1 h2 start fuel (stop + 1) (by omega) (by omega) (by omega) (by omega)
      refine ⟨e, by omega, b2, b3, b4, fun k hk1 hk2 => ?_⟩
      by_cases hk : k = stop
      · subst hk
        exact a4
      · exact b5 k (by omega) hk2

theorem shrinkLoop_run (h1 : ticksOf l < U64) (h2 : bytesOf l < U64) (hT : 0 < T) (e : Nat) (he : e ≤ l.length) : ∀ (fuel start : Nat),
    start < e → e ≤ start + fuel →
    ∃ b, start < b ∧ b ≤ e ∧
      shrinkLoop l T fuel (bytesTo l e - bytesTo l start) (ticksTo l e - ticksTo l start) start =
        .ok (bytesTo l e - bytesTo l b, ticksTo l e - ticksTo l b, b) ∧
      ticksTo l e - ticksTo l b < T ∧ ∀ k, start < k → k < b → T ≤ ticksTo l e - ticksTo l k
  | 0, start, a1, a2 => by omega
  | fuel + 1, start, a1, a2 => by
    unfold shrinkLoop
    rw [List.getElem?_eq_getElem (show start < l.length by omega)]
    have e1 : sub64 (bytesTo l e - bytesTo l start) l[start].size = bytesTo l e - bytesTo l (start + 1) := by
      have := bytesTo_succ (show start < l.length by omega)
      have hle := bytesTo_le (l := l) (show start + 1 ≤ e by omega)
      have hmax := bytesTo_le (l := l) he
      rw [bytesTo_length] at hmax
      generalize bytesTo l e = x at *
      generalize bytesTo l (start + 1) = y at *
      generalize bytesTo l start = z at *
      generalize l[start].size = w at *
      unfold sub64
      simp only [U64] at *
      omega
    have e2 : sub64 (ticksTo l e - ticksTo l start) l[start].timeDelta = ticksTo l e - ticksTo l (start + 1) := by
      have := ticksTo_succ (show start < l.length by omega)
      have hle := ticksTo_le (l := l) (show start + 1 ≤ e by omega)
      have hmax := ticksTo_le (l := l) he
      rw [ticksTo_length] at hmax
      generalize ticksTo l e = x at *
      generalize ticksTo l (start + 1) = y at *
      generalize ticksTo l start = z at *
      generalize l[start].timeDelta = w at *
      unfold sub64
      simp only [U64] at *
      omega
    simp only [e1, e2]
    split
    · next hc => exact ⟨start + 1, by omega, by omega, rfl, hc, fun k hk1 hk2 => by omega⟩
    · next hc =>
      have hlt : start + 1 < e := by
        by_cases h : start + 1 = e
        · rw [h] at hc
          omega
        · omega
      obtain ⟨b, b1, b2, b3, b4, b5⟩ := shrinkLoop_run h1 h2 hT e he fuel (start + 1) hlt (by omega)
      refine ⟨b, by omega, b2, b3, b4, fun k hk1 hk2 => ?_⟩
      by_cases hk : k = start + 1
      · subst hk
        omega
      · exact b5 k (by omega) hk2

theorem examined_iff (b e : Nat) : Examined l T b e ↔ b < e ∧ e ≤ l.length ∧ (T ≤ ticksTo l e - ticksTo l b ∨ e = l.length) ∧
    ticksTo l (e - 1) - ticksTo l b < T ∧ ∀ b' < b, T ≤ ticksTo l (e - 1) - ticksTo l b' := by
  unfold Examined
  simp only [ticks_window]

theorem mul64_bits (a b : Nat) : mul64 (mul64 8 a) b = 8 * a * b % U64 := by
  unfold mul64
  rw [Nat.mod_mul_mod]

/-- the result is right so far -/
def Best (l : List Sample) (T ts upto best : Nat) : Prop :=
  (∀ b e, Examined l T b e → e ≤ upto → ticksOf (window l b e) ≠ 0 ∧ bitsPerSecond (window l b e) ts ≤ best) ∧
  (best = 0 ∨ ∃ b e, Examined l T b e ∧ bitsPerSecond (window l b e) ts = best)

theorem maxLoop_run {ts : Nat} (h1 : ticksOf l < U64) (h2 : 8 * bytesOf l * ts < U64) (h3 : bytesOf l < U64) (hT : 0 < T)
    (inner : Nat) (hi : l.length ≤ inner) : ∀ (fuel best start stop : Nat), l.length < stop + fuel → start ≤ stop → stop ≤ l.length →
    (stop < l.length → ticksTo l stop - ticksTo l start < T ∧ ∀ b' < start, T ≤ ticksTo l stop - ticksTo l b') →
    Best l T ts stop best →
    (maxLoop l ts T inner fuel best (bytesTo l stop - bytesTo l start) (ticksTo l stop - ticksTo l start) start stop = .panic ∧
      ∃ b e, Examined l T b e ∧ ticksOf (window l b e) = 0) ∨
    ∃ r, maxLoop l ts T inner fuel best (bytesTo l stop - bytesTo l start) (ticksTo l stop - ticksTo l start) start stop = .ok r ∧
      Best l T ts l.length r
  | 0, best, start, stop, a1, a2, a3, a4, a5 => by omega
  | fuel + 1, best, start, stop, a1, a2, a3, a4, a5 => by
    unfold maxLoop
    by_cases hlt : stop < l.length
    · rw [if_pos hlt]
      obtain ⟨i1, i2⟩ := a4 hlt
      obtain ⟨e, g1, g2, g3, g4, g5⟩ := growLoop_run h1 h3 start inner stop a2 hlt (by omega) i1
      rw [g3]
      simp only
      -- the window examined
      have hex : Examined l T start e := by
        rw [examined_iff]
        refine ⟨by omega, g2, g4, g5 (e - 1) (by omega) (by omega), fun b' hb' => ?_⟩
        have := ticksTo_le (l := l) (show stop ≤ e - 1 by omega)
        have := i2 b' hb'
        omega
      have huniq : ∀ b' e', Examined l T b' e' → stop < e' → e' ≤ e → b' = start ∧ e' = e := by
        intro b' e' hb hs he'
        rw [examined_iff] at hb
        obtain ⟨c1, c2, c3, c4, c5⟩ := hb
        have hb' : b' = start := by
          rcases Nat.lt_trichotomy b' start with h | h | h
          · have := i2 b' h
            have := ticksTo_le (l := l) (show stop ≤ e' - 1 by omega)
            omega
          · exact h
          · have := c5 start h
            have := g5 (e' - 1) (by omega) (by omega)
            omega
        subst hb'
        refine ⟨rfl, ?_⟩
        rcases Nat.lt_or_ge e' e with h | h
        · rcases c3 with c3 | c3
          · have := g5 e' (by omega) h
            omega
          · omega
        · omega
      by_cases hz : ticksTo l e - ticksTo l start = 0
      · left
        unfold rate
        rw [if_pos hz]
        exact ⟨rfl, start, e, hex, by rw [ticks_window]; exact hz⟩
      · unfold rate
        rw [if_neg hz]
        simp only
        have hr : mul64 (mul64 8 (bytesTo l e - bytesTo l start)) ts / (ticksTo l e - ticksTo l start) =
            bitsPerSecond (window l start e) ts := by
          unfold bitsPerSecond
          rw [ticks_window, bytes_window]
          have hmax := bytesTo_le (l := l) g2
          rw [bytesTo_length] at hmax
          have k1 : 8 * (bytesTo l e - bytesTo l start) ≤ 8 * bytesOf l := by omega
          have k2 := Nat.mul_le_mul_right ts k1
          rw [mul64_bits, Nat.mod_eq_of_lt (by omega)]
        rw [hr]
        obtain ⟨b, s1, s2, s3, s4, s5⟩ := shrinkLoop_run h1 h3 hT e g2 inner start (by omega) (by omega)
        rw [s3]
        simp only
        apply maxLoop_run h1 h2 h3 hT inner hi fuel _ b e (by omega) (by omega) g2
        · intro hle
          refine ⟨s4, fun b' hb' => ?_⟩
          have hge : T ≤ ticksTo l e - ticksTo l start := by
            rcases g4 with g4 | g4
            · exact g4
            · omega
          rcases Nat.lt_trichotomy b' start with h | h | h
          · have := ticksTo_le (l := l) (show b' ≤ start by omega)
            omega
          · subst h; exact hge
          · exact s5 b' h hb'
        · obtain ⟨j1, j2⟩ := a5
          constructor
          · intro b' e' hb he'
            rcases Nat.lt_or_ge stop e' with h | h
            · obtain ⟨rfl, rfl⟩ := huniq b' e' hb h he'
              refine ⟨by rw [ticks_window]; exact hz, ?_⟩
              split <;> omega
            · obtain ⟨k1, k2⟩ := j1 b' e' hb h
              refine ⟨k1, ?_⟩
              split <;> omega
          · split
            · exact .inr ⟨start, e, hex, rfl⟩
            · exact j2
    · rw [if_neg hlt]
      have : stop = l.length := by omega
      subst this
      exact .inr ⟨best, rfl, a5⟩

theorem sum64_eq : ∀ (l : List Nat) (a : Nat), l.foldl add64 (a % U64) = (a + l.sum) % U64
  | [], a => by simp
  | x :: l, a => by
    rw [List.foldl_cons, List.sum_cons]
    have : add64 (a % U64) x = (a + x) % U64 := by
      unfold add64
      rw [Nat.mod_add_mod]
    rw [this, sum64_eq l (a + x), Nat.add_assoc]

end Mp4.Props
