import Verif.Model.Playlist

/-!
# Rounding to binary64
-/

namespace Mp4.Tool

open Mp4

theorem ulp_pos (q : Nat) : 0 < ulp q := Nat.pow_pos (by decide)

theorem ulp_le {q : Nat} (h : 2 ^ 52 ≤ q) : ulp q * 2 ^ 52 ≤ q := by
  have h0 : q ≠ 0 := by omega
  have h1 : 52 ≤ Nat.log2 q := (Nat.le_log2 h0).2 h
  unfold ulp
  rw [← Nat.pow_add, Nat.sub_add_cancel h1]
  exact Nat.log2_self_le h0

/-- the distance of the rounded number -/
theorem roundQ_near {x den : Nat} (hd : 0 < den) :
    2 * (roundQ x den * den) ≤ 2 * x + den * ulp (x / den) ∧ 2 * x ≤ 2 * (roundQ x den * den) + den * ulp (x / den) := by
  unfold roundQ
  have hu := ulp_pos (x / den)
  generalize ulp (x / den) = u at *
  simp only
  have hw : 0 < den * u := Nat.mul_pos hd hu
  have h1 := Nat.div_add_mod x (den * u)
  have h2 := Nat.mod_lt x hw
  generalize x / (den * u) = c at *
  generalize x % (den * u) = r at *
  split
  · next h =>
    have e : c * u * den = den * u * c := by grind
    rw [e]
    generalize den * u * c = y at *
    omega
  · next h =>
    have e : (c + 1) * u * den = den * u * c + den * u := by grind
    rw [e]
    generalize den * u * c = y at *
    omega

/-- the relative error is at most 2^-53 -/
theorem roundQ_rel {x den : Nat} (hd : 0 < den) (hx : 2 ^ 52 * den ≤ x) :
    roundQ x den * den * 2 ^ 53 ≤ x * (2 ^ 53 + 1) ∧ x * (2 ^ 53 - 1) ≤ roundQ x den * den * 2 ^ 53 := by
  obtain ⟨h1, h2⟩ := roundQ_near (x := x) hd
  have h3 : ulp (x / den) * 2 ^ 52 ≤ x / den := ulp_le ((Nat.le_div_iff_mul_le hd).2 hx)
  have h4 : den * ulp (x / den) * 2 ^ 52 ≤ x := by
    have := Nat.mul_le_mul_left den h3
    have h5 := Nat.div_mul_le_self x den
    rw [Nat.mul_comm den (x / den)] at this
    rw [Nat.mul_assoc]
    omega
  generalize den * ulp (x / den) = w at *
  generalize roundQ x den * den = y at *
  omega

/-- a number that has 53 digits is not changed -/
theorem roundQ_exact {y den : Nat} (hd : 0 < den) (hu : ulp y ∣ y) : roundQ (y * den) den = y := by
  unfold roundQ
  rw [Nat.mul_div_cancel _ hd]
  obtain ⟨k, hk⟩ := hu
  have hp := ulp_pos y
  generalize ulp y = u at *
  subst hk
  have e : u * k * den = k * (den * u) := by grind
  have hw : 0 < den * u := Nat.mul_pos hd hp
  simp only
  rw [e, Nat.mul_mod_left, Nat.mul_div_cancel _ hw, if_pos (.inl (by omega)), Nat.mul_comm]

theorem ulp_dvd {n : Nat} (h : n < 2 ^ 53) : ulp (n * f64One) ∣ n * f64One := by
  unfold ulp f64One
  have h1 : Nat.log2 (n * 2 ^ 1074) - 52 ≤ 1074 := by
    by_cases h0 : n = 0
    · subst h0
      rw [Nat.zero_mul]
      decide
    · have : Nat.log2 (n * 2 ^ 1074) < 53 + 1074 := (Nat.log2_lt (Nat.mul_ne_zero h0 (Nat.ne_of_gt (Nat.pow_pos (by decide))))).2 (by
        rw [Nat.pow_add]
        exact Nat.mul_lt_mul_of_pos_right h (Nat.pow_pos (by decide)))
      omega
  exact Nat.dvd_trans (Nat.pow_dvd_pow 2 h1) (Nat.dvd_mul_left _ _)

theorem one_pos : 0 < f64One := Nat.pow_pos (by decide)

theorem one_big : 2 ^ 200 ≤ f64One := Nat.pow_le_pow_right (by decide) (by decide)

theorem pack_fin {n : Nat} (h : n < 2 ^ 200 * f64One) : pack n = .fin n := by
  unfold pack
  have : 2 ^ 200 * f64One ≤ 2 ^ 1024 * f64One := Nat.mul_le_mul_right _ (Nat.pow_le_pow_right (by decide) (by decide))
  rw [if_pos (by omega)]

theorem ofNat_exact {n : Nat} (h : n < 2 ^ 53) : F64.ofNat n = .fin (n * f64One) := by
  unfold F64.ofNat
  have := roundQ_exact (den := 1) (by decide) (ulp_dvd h)
  rw [Nat.mul_one] at this
  rw [this, pack_fin]
  exact Nat.mul_lt_mul_of_pos_right (by omega) one_pos

/-- `float64` of a 64-bit number -/
theorem ofNat_rel {n : Nat} (h : n < 2 ^ 64) :
    ∃ s, F64.ofNat n = .fin s ∧ s * 2 ^ 53 ≤ n * f64One * (2 ^ 53 + 1) ∧ n * f64One * (2 ^ 53 - 1) ≤ s * 2 ^ 53 := by
  have hp := one_pos
  have hbig := one_big
  by_cases h0 : n = 0
  · subst h0
    refine ⟨0, ?_, by simp, by simp⟩
    rw [ofNat_exact (by decide), Nat.zero_mul]
  · have h1 := roundQ_rel (x := n * f64One) (den := 1) (by decide) (by
      have : 1 * f64One ≤ n * f64One := Nat.mul_le_mul_right _ (by omega)
      omega)
    rw [Nat.mul_one] at h1
    refine ⟨_, ?_, h1⟩
    unfold F64.ofNat
    apply pack_fin
    have : n * f64One ≤ 2 ^ 64 * f64One := Nat.mul_le_mul_right _ (by omega)
    omega

/-- The quotient of two 32-bit numbers. -/
theorem seconds_rel {t : DTrack} {a : Nat} (ha : a < 2 ^ 32) (hb : 0 < t.timescale) (hb' : t.timescale < 2 ^ 32) :
    ∃ N, seconds t a = .fin N ∧ N * t.timescale * 2 ^ 53 ≤ a * f64One * (2 ^ 53 + 1) ∧ a * f64One * (2 ^ 53 - 1) ≤ N * t.timescale * 2 ^ 53 ∧
      ∀ c, a = c * t.timescale → N = c * f64One := by
  unfold seconds
  rw [ofNat_exact (by omega), ofNat_exact (by omega)]
  generalize t.timescale = b at *
  have hp := one_pos
  have hbig := one_big
  have hden : 0 < b * f64One := Nat.mul_pos hb hp
  unfold F64.div
  simp only
  rw [if_neg (by omega)]
  have hex : ∀ c, a = c * b → roundQ (a * f64One * f64One) (b * f64One) = c * f64One := by
    intro c hc
    have e : a * f64One * f64One = c * f64One * (b * f64One) := by rw [hc]; grind
    have hcl : c < 2 ^ 53 := by
      have : c * 1 ≤ c * b := Nat.mul_le_mul_left _ hb
      omega
    rw [e]
    exact roundQ_exact hden (ulp_dvd hcl)
  have hrel : roundQ (a * f64One * f64One) (b * f64One) * b * 2 ^ 53 ≤ a * f64One * (2 ^ 53 + 1) ∧
      a * f64One * (2 ^ 53 - 1) ≤ roundQ (a * f64One * f64One) (b * f64One) * b * 2 ^ 53 := by
    by_cases h0 : a = 0
    · subst h0
      rw [hex 0 (by omega)]
      omega
    · have h1 := roundQ_rel (x := a * f64One * f64One) (den := b * f64One) hden (by
        have h2 : 2 ^ 52 * b ≤ a * f64One := by
          have : 1 * f64One ≤ a * f64One := Nat.mul_le_mul_right _ (by omega)
          omega
        have := Nat.mul_le_mul_right f64One h2
        rw [← Nat.mul_assoc]
        exact this)
      generalize roundQ (a * f64One * f64One) (b * f64One) = N at *
      refine ⟨Nat.le_of_mul_le_mul_right ?_ hp, Nat.le_of_mul_le_mul_right ?_ hp⟩
      · have e1 : N * (b * f64One) * 2 ^ 53 = N * b * 2 ^ 53 * f64One := by grind
        have e2 : a * f64One * f64One * (2 ^ 53 + 1) = a * f64One * (2 ^ 53 + 1) * f64One := by grind
        rw [← e1, ← e2]
        exact h1.1
      · have e1 : N * (b * f64One) * 2 ^ 53 = N * b * 2 ^ 53 * f64One := by grind
        have e2 : a * f64One * f64One * (2 ^ 53 - 1) = a * f64One * (2 ^ 53 - 1) * f64One := by
          generalize 2 ^ 53 - 1 = k
          grind
        rw [← e1, ← e2]
        exact h1.2
  refine ⟨_, pack_fin ?_, hrel.1, hrel.2, hex⟩
  generalize roundQ (a * f64One * f64One) (b * f64One) = N at *
  have h1 : N * 1 ≤ N * b := Nat.mul_le_mul_left _ hb
  have h2 : a * f64One ≤ 2 ^ 32 * f64One := Nat.mul_le_mul_right _ (by omega)
  omega

/-- rounding up is not disturbed by the rounding of the quotient -/
theorem seconds_ceil {t : DTrack} {a N : Nat} (ha : a < 2 ^ 32)
    (h1 : N * t.timescale * 2 ^ 53 ≤ a * f64One * (2 ^ 53 + 1)) (h2 : a * f64One * (2 ^ 53 - 1) ≤ N * t.timescale * 2 ^ 53)
    (h3 : ∀ c, a = c * t.timescale → N = c * f64One) (T : Nat) :
    N ≤ T * f64One ↔ a ≤ T * t.timescale := by
  generalize t.timescale = b at *
  have hp := one_pos
  have haO : a * f64One < 2 ^ 53 * f64One := Nat.mul_lt_mul_of_pos_right (by omega) hp
  constructor
  · intro h
    refine Nat.le_of_not_lt fun hlt => ?_
    have e1 : N * b ≤ T * b * f64One := by
      have := Nat.mul_le_mul_right b h
      have e : T * f64One * b = T * b * f64One := by grind
      omega
    have e2 : (T * b + 1) * f64One ≤ a * f64One := Nat.mul_le_mul_right _ hlt
    rw [Nat.add_mul] at e2
    omega
  · intro h
    rcases Nat.eq_or_lt_of_le h with h | h
    · rw [h3 T h]
      exact Nat.le_refl _
    · refine Nat.le_of_not_lt fun hlt => ?_
      have e1 : T * b * f64One ≤ N * b := by
        have := Nat.mul_le_mul_right b (Nat.le_of_lt hlt)
        have e : T * f64One * b = T * b * f64One := by grind
        omega
      have e2 : (a + 1) * f64One ≤ T * b * f64One := Nat.mul_le_mul_right _ h
      rw [Nat.add_mul] at e2
      omega

/-- the number of millionths that `%f` shows -/
def micros (N : Nat) : Nat :=
  let n := N * 10 ^ 6
  let q := n / f64One
  let r := n % f64One
  if 2 * r < f64One then q else if 2 * r > f64One then q + 1 else q + q % 2

theorem micros_near (N : Nat) : 2 * (micros N * f64One) ≤ 2 * (N * 10 ^ 6) + f64One ∧ 2 * (N * 10 ^ 6) ≤ 2 * (micros N * f64One) + f64One := by
  unfold micros
  have hp := one_pos
  simp only
  generalize N * 10 ^ 6 = n
  have h1 := Nat.div_add_mod n f64One
  have h2 := Nat.mod_lt n hp
  rw [Nat.mul_comm] at h1
  generalize n / f64One = q at *
  generalize n % f64One = r at *
  split
  · omega
  · split
    · rw [Nat.add_mul]; omega
    · rcases Nat.mod_two_eq_zero_or_one q with e | e <;> rw [e]
      · rw [Nat.add_zero]; omega
      · rw [Nat.add_mul]; omega

/-- the text shows the millionth next to the quotient -/
theorem seconds_micros {t : DTrack} {a N : Nat} (ha : a < 2 ^ 32)
    (h1 : N * t.timescale * 2 ^ 53 ≤ a * f64One * (2 ^ 53 + 1)) (h2 : a * f64One * (2 ^ 53 - 1) ≤ N * t.timescale * 2 ^ 53) :
    2 * (micros N * t.timescale) ≤ 2 * (a * 10 ^ 6) + t.timescale ∧ 2 * (a * 10 ^ 6) ≤ 2 * (micros N * t.timescale) + t.timescale := by
  generalize t.timescale = b at *
  obtain ⟨h3, h4⟩ := micros_near N
  generalize micros N = m at *
  have hp := one_pos
  have haO : a * f64One * (2 * 10 ^ 6) < 2 ^ 53 * f64One := by
    have : a * (2 * 10 ^ 6) * f64One < 2 ^ 53 * f64One := Nat.mul_lt_mul_of_pos_right (by omega) hp
    have e : a * f64One * (2 * 10 ^ 6) = a * (2 * 10 ^ 6) * f64One := by grind
    omega
  have k3 := Nat.mul_le_mul_right b h3
  have k4 := Nat.mul_le_mul_right b h4
  have e1 : 2 * (m * f64One) * b = 2 * (m * b * f64One) := by grind
  have e2 : (2 * (N * 10 ^ 6) + f64One) * b = 2 * (N * b * 10 ^ 6) + b * f64One := by grind
  have e3 : 2 * (N * 10 ^ 6) * b = 2 * (N * b * 10 ^ 6) := by grind
  have e4 : (2 * (m * f64One) + f64One) * b = 2 * (m * b * f64One) + b * f64One := by grind
  rw [e1, e2] at k3
  rw [e3, e4] at k4
  constructor
  · refine Nat.le_of_not_lt fun hlt => ?_
    have k : (2 * (a * 10 ^ 6) + b + 1) * f64One ≤ 2 * (m * b) * f64One := Nat.mul_le_mul_right _ hlt
    have e5 : (2 * (a * 10 ^ 6) + b + 1) * f64One = 2 * (a * f64One * 10 ^ 6) + b * f64One + f64One := by grind
    rw [e5, show 2 * (m * b) * f64One = 2 * (m * b * f64One) from Nat.mul_assoc _ _ _] at k
    omega
  · refine Nat.le_of_not_lt fun hlt => ?_
    have k : (2 * (m * b) + b + 1) * f64One ≤ 2 * (a * 10 ^ 6) * f64One := Nat.mul_le_mul_right _ hlt
    have e5 : (2 * (m * b) + b + 1) * f64One = 2 * (m * b * f64One) + b * f64One + f64One := by grind
    have e6 : 2 * (a * 10 ^ 6) * f64One = 2 * (a * f64One * 10 ^ 6) := by grind
    rw [e5, e6] at k
    omega

theorem num_up {X Y : Nat} (h : X * (2 ^ 53 * (2 ^ 53 - 1)) ≤ Y * ((2 ^ 53 + 1) * (2 ^ 53 + 1))) : X * 2 ^ 51 ≤ Y * (2 ^ 51 + 1) := by
  refine Nat.le_of_mul_le_mul_right (c := 2 ^ 53 * (2 ^ 53 - 1)) ?_ (by decide)
  have h1 := Nat.mul_le_mul_right (2 ^ 51) h
  have h2 := Nat.mul_le_mul_left Y (show (2 ^ 53 + 1) * (2 ^ 53 + 1) * 2 ^ 51 ≤ (2 ^ 51 + 1) * (2 ^ 53 * (2 ^ 53 - 1)) by decide)
  rw [show X * 2 ^ 51 * (2 ^ 53 * (2 ^ 53 - 1)) = X * (2 ^ 53 * (2 ^ 53 - 1)) * 2 ^ 51 from Nat.mul_right_comm _ _ _, Nat.mul_assoc Y]
  rw [Nat.mul_assoc Y] at h1
  exact Nat.le_trans h1 h2

theorem num_down {X Y : Nat} (h : Y * ((2 ^ 53 - 1) * (2 ^ 53 - 1)) ≤ X * (2 ^ 53 * (2 ^ 53 + 1))) : Y * (2 ^ 51 - 1) ≤ X * 2 ^ 51 := by
  refine Nat.le_of_mul_le_mul_right (c := 2 ^ 53 * (2 ^ 53 + 1)) ?_ (by decide)
  have h1 := Nat.mul_le_mul_right (2 ^ 51) h
  have h2 := Nat.mul_le_mul_left Y (show (2 ^ 51 - 1) * (2 ^ 53 * (2 ^ 53 + 1)) ≤ (2 ^ 53 - 1) * (2 ^ 53 - 1) * 2 ^ 51 by decide)
  rw [show X * 2 ^ 51 * (2 ^ 53 * (2 ^ 53 + 1)) = X * (2 ^ 53 * (2 ^ 53 + 1)) * 2 ^ 51 from Nat.mul_right_comm _ _ _, Nat.mul_assoc Y]
  rw [Nat.mul_assoc Y] at h1
  exact Nat.le_trans h2 h1

theorem num_range {X Y Z : Nat} (h : X * 2 ^ 51 ≤ Y * (2 ^ 51 + 1)) (h1 : 2 * Z ≤ X) (h2 : Y < Z) : False := by
  omega

theorem rate_zero (cv : Conv) {t : DTrack} {a : Nat} (ha : a < 2 ^ 32) (ha' : 0 < a) (hb : 0 < t.timescale) (hb' : t.timescale < 2 ^ 32) :
    mdatRate cv t (0, a) = 0 := by
  obtain ⟨N, e2, n1, n2, -⟩ := seconds_rel ha hb hb'
  have hp := one_pos
  have haO : f64One ≤ a * f64One := Nat.le_mul_of_pos_left _ ha'
  have hN : N ≠ 0 := by
    intro h
    subst h
    omega
  unfold mdatRate
  simp only
  rw [e2, ofNat_exact (by decide), Nat.zero_mul]
  unfold F64.times8
  simp only
  rw [Nat.zero_mul, pack_fin (by omega)]
  unfold F64.div
  simp only
  rw [if_neg hN, Nat.zero_mul]
  have : roundQ 0 N = 0 := by
    unfold roundQ
    simp only [Nat.zero_div, Nat.zero_mod]
    rw [if_pos]
    · exact Nat.zero_mul _
    · left
      exact Nat.mul_pos (by omega) (ulp_pos 0)
  rw [this, pack_fin (by omega)]
  unfold toUint64
  simp only [Nat.zero_div]
  rfl

/-- the bits per second of a box -/
theorem rate_rel (cv : Conv) {t : DTrack} {n a : Nat} (hn : n < 2 ^ 64) (ha : a < 2 ^ 32) (ha' : 0 < a) (hb : 0 < t.timescale) (hb' : t.timescale < 2 ^ 32)
    (hr : 8 * n * t.timescale < 2 ^ 63 * a) :
    mdatRate cv t (n, a) * a * 2 ^ 51 ≤ 8 * n * t.timescale * (2 ^ 51 + 1) ∧
    8 * n * t.timescale * (2 ^ 51 - 1) < (mdatRate cv t (n, a) + 1) * a * 2 ^ 51 := by
  obtain ⟨s, e1, s1, s2⟩ := ofNat_rel hn
  obtain ⟨N, e2, n1, n2, -⟩ := seconds_rel ha hb hb'
  by_cases hn' : n = 0
  · subst hn'
    rw [show mdatRate cv t (0, a) = 0 from rate_zero cv ha ha' hb hb']
    constructor
    · simp
    · simp only [Nat.mul_zero, Nat.zero_mul]
      omega
  have hn' : 0 < n := by omega
  generalize t.timescale = b at *
  have hp := one_pos
  have hbig := one_big
  generalize hO : f64One = O at *
  have hnO : O ≤ n * O := Nat.le_mul_of_pos_left _ hn'
  have hnO' : n * O ≤ 2 ^ 64 * O := Nat.mul_le_mul_right _ (by omega)
  have haO : O ≤ a * O := Nat.le_mul_of_pos_left _ ha'
  have haO' : a * O ≤ 2 ^ 32 * O := Nat.mul_le_mul_right _ (by omega)
  have hNb : N ≤ N * b := Nat.le_mul_of_pos_right _ hb
  have hNb' : N * b ≤ N * 2 ^ 32 := Nat.mul_le_mul_left _ (by omega)
  have hN : 0 < N := by
    refine Nat.pos_of_ne_zero fun h => ?_
    subst h
    omega
  have hden : 2 ^ 52 * N ≤ s * 8 * O := by
    have h1 : 2 ^ 33 * O ≤ s * O := Nat.mul_le_mul_right _ (by omega)
    have h2 : 2 ^ 90 * O ≤ s * O := Nat.mul_le_mul_right _ (by omega)
    have e : s * 8 * O = s * O * 8 := by grind
    omega
  obtain ⟨b1, b2⟩ := roundQ_rel hN hden
  have hrate : mdatRate cv t (n, a) = toUint64 cv (pack (roundQ (s * 8 * O) N)) := by
    unfold mdatRate
    simp only
    rw [e1, e2]
    unfold F64.times8
    simp only
    rw [pack_fin (by rw [hO]; omega)]
    unfold F64.div
    simp only
    rw [if_neg (by omega), hO]
  rw [hrate]
  generalize roundQ (s * 8 * O) N = B at *
  have hU : B * a * 2 ^ 51 ≤ 8 * n * b * O * (2 ^ 51 + 1) := by
    have c1 := Nat.mul_le_mul_left (B * 2 ^ 53) n2
    have c2 := Nat.mul_le_mul_left (b * 2 ^ 53) b1
    have c3 := Nat.mul_le_mul_left (8 * O * (2 ^ 53 + 1) * b) s1
    have d1 : B * 2 ^ 53 * (N * b * 2 ^ 53) = b * 2 ^ 53 * (B * N * 2 ^ 53) := by generalize 2 ^ 53 = K; grind
    have d2 : b * 2 ^ 53 * (s * 8 * O * (2 ^ 53 + 1)) = 8 * O * (2 ^ 53 + 1) * b * (s * 2 ^ 53) := by generalize 2 ^ 53 = K; grind
    have d3 : B * 2 ^ 53 * (a * O * (2 ^ 53 - 1)) = B * a * (2 ^ 53 * (2 ^ 53 - 1)) * O := by generalize 2 ^ 53 - 1 = J; generalize 2 ^ 53 = K; grind
    have d4 : 8 * O * (2 ^ 53 + 1) * b * (n * O * (2 ^ 53 + 1)) = 8 * n * b * O * ((2 ^ 53 + 1) * (2 ^ 53 + 1)) * O := by generalize 2 ^ 53 = K; grind
    have c : B * a * (2 ^ 53 * (2 ^ 53 - 1)) * O ≤ 8 * n * b * O * ((2 ^ 53 + 1) * (2 ^ 53 + 1)) * O := by
      rw [← d3, ← d4]
      exact Nat.le_trans c1 (Nat.le_trans (Nat.le_of_eq d1) (Nat.le_trans c2 (Nat.le_trans (Nat.le_of_eq d2) c3)))
    have c' := Nat.le_of_mul_le_mul_right c hp
    exact num_up c'
  have hL : 8 * n * b * O * (2 ^ 51 - 1) ≤ B * a * 2 ^ 51 := by
    have c1 := Nat.mul_le_mul_left (8 * O * (2 ^ 53 - 1) * b) s2
    have c2 := Nat.mul_le_mul_left (b * 2 ^ 53) b2
    have c3 := Nat.mul_le_mul_left (B * 2 ^ 53) n1
    have d1 : B * 2 ^ 53 * (N * b * 2 ^ 53) = b * 2 ^ 53 * (B * N * 2 ^ 53) := by generalize 2 ^ 53 = K; grind
    have d2 : b * 2 ^ 53 * (s * 8 * O * (2 ^ 53 - 1)) = 8 * O * (2 ^ 53 - 1) * b * (s * 2 ^ 53) := by generalize 2 ^ 53 - 1 = J; generalize 2 ^ 53 = K; grind
    have d3 : B * 2 ^ 53 * (a * O * (2 ^ 53 + 1)) = B * a * (2 ^ 53 * (2 ^ 53 + 1)) * O := by generalize 2 ^ 53 = K; grind
    have d4 : 8 * O * (2 ^ 53 - 1) * b * (n * O * (2 ^ 53 - 1)) = 8 * n * b * O * ((2 ^ 53 - 1) * (2 ^ 53 - 1)) * O := by generalize 2 ^ 53 - 1 = J; grind
    have c : 8 * n * b * O * ((2 ^ 53 - 1) * (2 ^ 53 - 1)) * O ≤ B * a * (2 ^ 53 * (2 ^ 53 + 1)) * O := by
      rw [← d3, ← d4]
      exact Nat.le_trans c1 (Nat.le_trans (Nat.le_of_eq d2.symm) (Nat.le_trans c2 (Nat.le_trans (Nat.le_of_eq d1.symm) c3)))
    have c' := Nat.le_of_mul_le_mul_right c hp
    exact num_down c'
  have hB : B < 2 ^ 64 * O := by
    refine Nat.lt_of_not_le fun h => ?_
    have h1 : 2 ^ 64 * O * a ≤ B * a := Nat.mul_le_mul_right _ h
    have h2 : 8 * n * b * O < 2 ^ 63 * a * O := Nat.mul_lt_mul_of_pos_right hr hp
    have d1 : 2 ^ 64 * O * a = 2 * (2 ^ 63 * a * O) := by
      have : 2 ^ 64 = 2 * 2 ^ 63 := by decide
      rw [this]
      generalize 2 ^ 63 = K
      grind
    exact num_range hU (d1 ▸ h1) h2
  rw [pack_fin (by rw [hO]; omega)]
  unfold toUint64
  simp only
  rw [hO, if_pos ((Nat.div_lt_iff_lt_mul hp).2 hB)]
  have q1 := Nat.div_add_mod B O
  have q2 := Nat.mod_lt B hp
  rw [Nat.mul_comm] at q1
  generalize B / O = q at *
  have g1 : q * O ≤ B := by omega
  have g2 : B < (q + 1) * O := by rw [Nat.add_mul]; omega
  have k1 := Nat.mul_le_mul_right a g1
  have k2 := Nat.mul_lt_mul_of_pos_right g2 ha'
  constructor
  · refine Nat.le_of_mul_le_mul_right ?_ hp
    have d1 : q * a * 2 ^ 51 * O = q * O * a * 2 ^ 51 := by generalize 2 ^ 51 = K; grind
    have d2 : 8 * n * b * (2 ^ 51 + 1) * O = 8 * n * b * O * (2 ^ 51 + 1) := by generalize 2 ^ 51 = K; grind
    rw [d1, d2]
    exact Nat.le_trans (Nat.mul_le_mul_right _ k1) hU
  · refine Nat.lt_of_mul_lt_mul_right (a := O) ?_
    have d1 : (q + 1) * a * 2 ^ 51 * O = (q + 1) * O * a * 2 ^ 51 := by generalize 2 ^ 51 = K; grind
    have d2 : 8 * n * b * (2 ^ 51 - 1) * O = 8 * n * b * O * (2 ^ 51 - 1) := by generalize 2 ^ 51 - 1 = K; grind
    rw [d1, d2]
    omega

end Mp4.Tool
