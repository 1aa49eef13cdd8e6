import Verif.Model.AccessorsMore
import Verif.Lemmas.Float64
import Verif.Props.Accessors
import Verif.Props.Stringify

/-!
# C40, continued: fractional accessors, lists of strings
-/

namespace Mp4.Props

open Mp4 Mp4.Spec Mp4.Str Mp4.Tool

/-! ## Fixed point numbers -/

/-- The `float64` is exactly the number `a / b`. -/
def IsQuot (x : F64) (a b : Nat) : Prop := ∃ k, x = .fin k ∧ k * b = a * 2 ^ 1074

/-- The `float32` is exactly the number `a / b`. -/
def IsQuot32 (x : Acc.F32) (a b : Nat) : Prop := ∃ k, x = .fin k ∧ k * b = a * 2 ^ 149

theorem ulp_dvd_shift {n : Nat} (h : n < 2 ^ 53) (e : Nat) : ulp (n * 2 ^ e) ∣ n * 2 ^ e := by
  unfold ulp
  have h1 : Nat.log2 (n * 2 ^ e) - 52 ≤ e := by
    by_cases h0 : n = 0
    · subst h0
      rw [Nat.zero_mul]
      exact Nat.zero_le _
    · have : Nat.log2 (n * 2 ^ e) < 53 + e := (Nat.log2_lt (Nat.mul_ne_zero h0 (Nat.ne_of_gt (Nat.pow_pos (by decide))))).2 (by
        rw [Nat.pow_add]
        exact Nat.mul_lt_mul_of_pos_right h (Nat.pow_pos (by decide)))
      omega
  exact Nat.dvd_trans (Nat.pow_dvd_pow 2 h1) (Nat.dvd_mul_left _ _)

/-- The quotient of a 32-bit number and 2^16 is exact. -/
theorem fixed16_exact {n : Nat} (h : n < 2 ^ 32) : IsQuot (Acc.fixed16 n) n 65536 := by
  have hs : (2 : Nat) ^ 1074 = 2 ^ 1058 * 65536 := by rw [show (65536 : Nat) = 2 ^ 16 from rfl, ← Nat.pow_add]
  refine ⟨n * 2 ^ 1058, ?_, by rw [Nat.mul_assoc, ← hs]⟩
  unfold Acc.fixed16
  rw [ofNat_exact (Nat.lt_trans h (by decide)), ofNat_exact (by decide)]
  have hne : (2 : Nat) ^ 16 * f64One ≠ 0 := Nat.mul_ne_zero (by decide) (Nat.ne_of_gt one_pos)
  simp only [F64.div, if_neg hne]
  have e : n * f64One * f64One = (n * 2 ^ 1058) * (2 ^ 16 * f64One) := by
    have : f64One = 2 ^ 1058 * 65536 := hs
    generalize (2 : Nat) ^ 1058 = a at *
    rw [show (2 : Nat) ^ 16 = 65536 from rfl]
    generalize f64One = o at *
    subst this
    grind
  rw [e, roundQ_exact (Nat.pos_of_ne_zero hne) (ulp_dvd_shift (Nat.lt_trans h (by decide)) _), pack_fin]
  have h1 : n * 2 ^ 1058 < 2 ^ 32 * 2 ^ 1058 := Nat.mul_lt_mul_of_pos_right h (Nat.pow_pos (by decide))
  have h2 : (2 : Nat) ^ 32 * 2 ^ 1058 ≤ 2 ^ 200 * f64One := by
    unfold f64One
    rw [← Nat.pow_add, ← Nat.pow_add]
    exact Nat.pow_le_pow_right (by decide) (by decide)
  omega

theorem ulp32_dvd_shift {n : Nat} (h : n < 2 ^ 24) (e : Nat) : Acc.ulp32 (n * 2 ^ e) ∣ n * 2 ^ e := by
  unfold Acc.ulp32
  have h1 : Nat.log2 (n * 2 ^ e) - 23 ≤ e := by
    by_cases h0 : n = 0
    · subst h0
      rw [Nat.zero_mul]
      exact Nat.zero_le _
    · have : Nat.log2 (n * 2 ^ e) < 24 + e := (Nat.log2_lt (Nat.mul_ne_zero h0 (Nat.ne_of_gt (Nat.pow_pos (by decide))))).2 (by
        rw [Nat.pow_add]
        exact Nat.mul_lt_mul_of_pos_right h (Nat.pow_pos (by decide)))
      omega
  exact Nat.dvd_trans (Nat.pow_dvd_pow 2 h1) (Nat.dvd_mul_left _ _)

theorem round32_exact {y den : Nat} (hd : 0 < den) (hu : Acc.ulp32 y ∣ y) : Acc.round32 (y * den) den = y := by
  unfold Acc.round32
  rw [Nat.mul_div_cancel _ hd]
  obtain ⟨k, hk⟩ := hu
  have hp : 0 < Acc.ulp32 y := Nat.pow_pos (by decide)
  generalize Acc.ulp32 y = u at *
  subst hk
  have e : u * k * den = k * (den * u) := by grind
  have hw : 0 < den * u := Nat.mul_pos hd hp
  simp only
  rw [e, Nat.mul_mod_left, Nat.mul_div_cancel _ hw, if_pos (.inl (by omega)), Nat.mul_comm]

/-- The quotient of a 16-bit number and 2^8 is exact. -/
theorem fixed8_exact {n : Nat} (h : n < 2 ^ 16) : IsQuot32 ((Acc.F32.ofNat n).divPow 8) n 256 := by
  refine ⟨n * 2 ^ 141, ?_, by rw [Nat.mul_assoc]⟩
  have e1 : Acc.F32.ofNat n = .fin (n * 2 ^ 149) := by
    unfold Acc.F32.ofNat Acc.f32One
    have := round32_exact (den := 1) (by decide) (ulp32_dvd_shift (n := n) (by omega) 149)
    rw [Nat.mul_one] at this
    rw [this]
    unfold Acc.pack32 Acc.f32One
    rw [if_pos (Nat.mul_lt_mul_of_pos_right (by omega) (by decide))]
  rw [e1]
  unfold Acc.F32.divPow Acc.f32One
  have e2 : n * 2 ^ 149 * 2 ^ 149 = (n * 2 ^ 141) * (2 ^ 8 * 2 ^ 149) := by
    rw [Nat.mul_assoc, Nat.mul_assoc]
  simp only
  rw [e2, round32_exact (by decide) (ulp32_dvd_shift (by omega) _)]
  unfold Acc.pack32 Acc.f32One
  rw [if_pos (by omega)]

theorem ReadsAs.mono {bd : BoxDef} {ctx : Ctx} {bits : List Bool} {P Q : SV → Prop} (h : ReadsAs bd ctx bits P) (hpq : ∀ sv, P sv → Q sv) :
    ReadsAs bd ctx bits Q := by
  obtain ⟨p, h1, h2⟩ := h
  refine ⟨p, h1, fun pre rest hl => ?_⟩
  obtain ⟨sv, h3, h4⟩ := h2 pre rest hl
  exact ⟨sv, h3, hpq sv h4⟩

/-- **C40** — After a track header has been read, `GetWidth` and `GetHeight` are exactly the 16.16 fixed point numbers in the box. -/
theorem tkhd_size_exact (version f0 f1 f2 creation modification track duration width height : Nat) (layer group volume : Int)
    (matrix : List Int) (hv : version = 0 ∨ version = 1)
    (hf : f0 < 256 ∧ f1 < 256 ∧ f2 < 256) (h1 : creation < 2 ^ timeBits version) (h2 : modification < 2 ^ timeBits version)
    (h3 : track < 2 ^ 32) (h4 : duration < 2 ^ timeBits version) (h5 : IsInt 16 layer ∧ IsInt 16 group ∧ IsInt 16 volume)
    (h7 : matrix.length = 9) (h8 : ∀ x ∈ matrix, IsInt 32 x) (h9 : width < 2 ^ 32) (h10 : height < 2 ^ 32) (ctx : Ctx) :
    ReadsAs Cat.bdTkhd ctx
      (verFlags version f0 f1 f2 ++
       ints [(timeBits version, creation), (timeBits version, modification), (32, track), (32, 0), (timeBits version, duration),
         (32, 0), (32, 0)] ++
       sint 16 layer ++ sint 16 group ++ sint 16 volume ++ ints [(16, 0)] ++ matrix.flatMap (sint 32) ++
       ints [(32, width), (32, height)])
      fun sv => IsQuot (Acc.tkhdWidth sv) width 65536 ∧ IsQuot (Acc.tkhdHeight sv) height 65536 := by
  refine (tkhd_accessors version f0 f1 f2 creation modification track duration width height layer group volume matrix hv hf h1 h2 h3 h4 h5 h7 h8
    h9 h10 ctx).mono ?_
  rintro sv ⟨-, -, -, hw, -, hh, -⟩
  unfold Acc.tkhdWidth16 at hw
  unfold Acc.tkhdHeight16 at hh
  unfold Acc.tkhdWidth Acc.tkhdHeight
  rw [hw, hh]
  exact ⟨fixed16_exact h9, fixed16_exact h10⟩

/-- **C40** — After a movie header has been read, `GetRate` is exactly the signed 16.16 fixed point number in the box. -/
theorem mvhd_rate_exact (version f0 f1 f2 creation modification timescale duration nextTrack : Nat) (rate volume : Int)
    (matrix : List Int) (hv : version = 0 ∨ version = 1)
    (hf : f0 < 256 ∧ f1 < 256 ∧ f2 < 256) (h1 : creation < 2 ^ timeBits version) (h2 : modification < 2 ^ timeBits version)
    (h3 : timescale < 2 ^ 32) (h4 : duration < 2 ^ timeBits version) (h5 : IsInt 32 rate) (h6 : IsInt 16 volume)
    (h7 : matrix.length = 9) (h8 : ∀ x ∈ matrix, IsInt 32 x) (h9 : nextTrack < 2 ^ 32) (ctx : Ctx) :
    ReadsAs Cat.bdMvhd ctx
      (verFlags version f0 f1 f2 ++
       ints [(timeBits version, creation), (timeBits version, modification), (32, timescale), (timeBits version, duration)] ++
       sint 32 rate ++ sint 16 volume ++ ints [(16, 0), (32, 0), (32, 0)] ++ matrix.flatMap (sint 32) ++
       ints [(32, 0), (32, 0), (32, 0), (32, 0), (32, 0), (32, 0), (32, nextTrack)])
      fun sv => ((Acc.mvhdRate sv).neg = true ↔ rate < 0) ∧ IsQuot (Acc.mvhdRate sv).mag rate.natAbs 65536 := by
  refine (mvhd_accessors version f0 f1 f2 creation modification timescale duration nextTrack rate volume matrix hv hf h1 h2 h3 h4 h5 h6 h7 h8 h9
    ctx).mono ?_
  rintro sv ⟨-, -, -, hr, -⟩
  unfold Acc.mvhdRate16 at hr
  unfold Acc.mvhdRate
  rw [hr]
  simp only
  refine ⟨decide_eq_true_iff, fixed16_exact (n := rate.natAbs) ?_⟩
  simp only [IsInt] at h5
  simp at h5
  omega

/-- **C40** — After a sound media header has been read, `GetBalance` is exactly the signed 8.8 fixed point number in the box. -/
theorem smhd_balance_exact (f0 f1 f2 : Nat) (balance : Int) (hf : f0 < 256 ∧ f1 < 256 ∧ f2 < 256) (h1 : IsInt 16 balance) (ctx : Ctx) :
    ReadsAs Cat.bdSmhd ctx (verFlags 0 f0 f1 f2 ++ sint 16 balance ++ ints [(16, 0)])
      fun sv => ((Acc.smhdBalance sv).neg = true ↔ balance < 0) ∧ IsQuot32 (Acc.smhdBalance sv).mag balance.natAbs 256 := by
  refine (smhd_accessors f0 f1 f2 balance hf h1 ctx).mono ?_
  rintro sv ⟨hr, -⟩
  unfold Acc.smhdBalance8 at hr
  unfold Acc.smhdBalance
  rw [hr]
  refine ⟨decide_eq_true_iff, fixed8_exact ?_⟩
  simp only [IsInt] at h1
  simp at h1
  omega

/-- **C40** — After an audio sample entry has been read, `GetSampleRate` is exactly the 16.16 fixed point number in the box. -/
theorem audio_rate_exact (index version channels size preDefined rate : Nat) (h0 : index < 2 ^ 16 ∧ version < 2 ^ 16)
    (h1 : channels < 2 ^ 16 ∧ size < 2 ^ 16 ∧ preDefined < 2 ^ 16) (h2 : rate < 2 ^ 32) (ctx : Ctx)
    (hc : ctx.isQuickTimeCompatible = false ∨ (ctx.underWave = false ∧ version ≠ 1 ∧ version ≠ 2)) :
    ReadsAs Cat.bdAudioSampleEntry ctx
      (ints [(8, 0), (8, 0), (8, 0), (8, 0), (8, 0), (8, 0), (16, index), (16, version), (16, 0), (16, 0), (16, 0), (16, channels),
        (16, size), (16, preDefined), (16, 0), (32, rate)])
      fun sv => IsQuot (Acc.audioSampleRate sv) rate 65536 := by
  refine (audio_accessors index version channels size preDefined rate h0 h1 h2 ctx hc).mono ?_
  rintro sv ⟨hr, -⟩
  unfold Acc.audioSampleRate16 at hr
  unfold Acc.audioSampleRate
  rw [hr]
  exact fixed16_exact h2

example := audio_rate_exact 1 0 2 16 0 (48000 * 65536 + 32768) (by decide) (by decide) (by decide) {} (by decide)
example := smhd_balance_exact 0 0 0 (-129) (by decide) (by decide) {}
example := mvhd_rate_exact 1 0 0 0 3791000000 3791000000 1000 9050000000 3 (-98304) 256
  [65536, 0, 0, 0, 65536, 0, 0, 0, 1073741824] (by decide) (by decide) (by decide) (by decide) (by decide) (by decide) (by decide)
  (by decide) rfl (by decide) (by decide) {}

/-! ## Lists of strings -/

/-- The white space of Unicode (property White_Space). -/
def whiteSpace : List Nat := [9, 10, 11, 12, 13, 32, 0x85, 0xa0, 0x1680, 0x2000, 0x2001, 0x2002, 0x2003, 0x2004, 0x2005, 0x2006, 0x2007, 0x2008, 0x2009,
  0x200a, 0x2028, 0x2029, 0x202f, 0x205f, 0x3000]

theorem isSpace_iff (r : Nat) : Acc.isSpace r = true ↔ r ∈ whiteSpace := by
  unfold Acc.isSpace whiteSpace
  simp only [Bool.or_eq_true, Bool.and_eq_true, decide_eq_true_eq, beq_iff_eq, List.mem_cons, List.not_mem_nil, or_false]
  omega

/-- A word in a text: its characters, and the white space behind it. -/
structure Word where
  chars : List Nat
  gap : List Nat

/-- characters, no white space -/
def Word.ok (w : Word) : Prop := w.chars ≠ [] ∧ (∀ r ∈ w.chars, scalar r ∧ r ∉ whiteSpace) ∧ ∀ r ∈ w.gap, r ∈ whiteSpace

/-- the text: white space, then words, each with white space behind it (not necessarily the last) -/
def wordsText (lead : List Nat) (ws : List Word) : List Nat := lead ++ ws.flatMap fun w => w.chars ++ w.gap

theorem white_scalar {r : Nat} (h : r ∈ whiteSpace) : scalar r := by
  have : ∀ r ∈ whiteSpace, r < 0xd800 := by decide
  exact .inl (this r h)

/-- one character -/
theorem fields_step {r : Nat} (hr : scalar r) (rest : Text) (cur : Text) (n : Nat) (hn : (encodeRune r ++ rest).length ≤ n) :
    ∃ m, rest.length ≤ m ∧ Acc.fieldsN n (encodeRune r ++ rest) cur =
      if r ∈ whiteSpace then Acc.flush cur ++ Acc.fieldsN m rest [] else Acc.fieldsN m rest (cur ++ encodeRune r) := by
  obtain ⟨b, bs, he, hd⟩ := decode_encode hr
  rw [he] at hn ⊢
  simp only [List.cons_append, List.length_cons, List.length_append] at hn
  match n, hn with
  | n + 1, hn =>
    refine ⟨n, by omega, ?_⟩
    rw [List.cons_append, Acc.fieldsN, hd]
    simp only [List.drop_left, List.take_left]
    by_cases hs : r ∈ whiteSpace
    · rw [if_pos hs, if_pos ((isSpace_iff r).2 hs)]
    · rw [if_neg hs, if_neg (fun h => hs ((isSpace_iff r).1 h))]

theorem fields_end (n : Nat) (cur : Text) : Acc.fieldsN n [] cur = Acc.flush cur := by
  cases n <;> rfl

/-- white space -/
theorem fields_gap : ∀ (g : List Nat) (rest : Text) (cur : Text) (n : Nat), (∀ r ∈ g, r ∈ whiteSpace) → g ≠ [] ∨ cur = [] →
    (g.flatMap encodeRune ++ rest).length ≤ n →
    ∃ m, rest.length ≤ m ∧ Acc.fieldsN n (g.flatMap encodeRune ++ rest) cur = Acc.flush cur ++ Acc.fieldsN m rest []
  | [], rest, cur, n, _, hc, hn => by
    rcases hc with hc | rfl
    · exact absurd rfl hc
    · exact ⟨n, hn, by simp [Acc.flush]⟩
  | r :: g, rest, cur, n, hg, _, hn => by
    rw [List.flatMap_cons, List.append_assoc] at hn ⊢
    have hr := hg r List.mem_cons_self
    obtain ⟨m, hm, e⟩ := fields_step (white_scalar hr) (g.flatMap encodeRune ++ rest) cur n hn
    rw [e, if_pos hr]
    obtain ⟨m', hm', e'⟩ := fields_gap g rest [] m (fun x hx => hg x (List.mem_cons_of_mem _ hx)) (.inr rfl) hm
    exact ⟨m', hm', by rw [e']; simp [Acc.flush]⟩

/-- the characters of a word -/
theorem fields_chars : ∀ (cs : List Nat) (rest : Text) (cur : Text) (n : Nat), (∀ r ∈ cs, scalar r ∧ r ∉ whiteSpace) →
    (cs.flatMap encodeRune ++ rest).length ≤ n →
    ∃ m, rest.length ≤ m ∧ Acc.fieldsN n (cs.flatMap encodeRune ++ rest) cur = Acc.fieldsN m rest (cur ++ cs.flatMap encodeRune)
  | [], rest, cur, n, _, hn => ⟨n, hn, by simp⟩
  | r :: cs, rest, cur, n, hc, hn => by
    rw [List.flatMap_cons, List.append_assoc] at hn ⊢
    have hr := hc r List.mem_cons_self
    obtain ⟨m, hm, e⟩ := fields_step hr.1 (cs.flatMap encodeRune ++ rest) cur n hn
    rw [e, if_neg hr.2]
    obtain ⟨m', hm', e'⟩ := fields_chars cs rest (cur ++ encodeRune r) m (fun x hx => hc x (List.mem_cons_of_mem _ hx)) hm
    exact ⟨m', hm', by rw [e']; simp⟩

theorem encode_ne (r : Nat) (hr : scalar r) : encodeRune r ≠ [] := by
  obtain ⟨b, bs, he, _⟩ := decode_encode hr
  rw [he]; simp

theorem fields_words : ∀ (ws : List Word) (n : Nat), (∀ w ∈ ws, w.ok) → (∀ A w B, ws = A ++ w :: B → B ≠ [] → w.gap ≠ []) →
    ((ws.flatMap fun w => w.chars ++ w.gap).flatMap encodeRune).length ≤ n →
    Acc.fieldsN n ((ws.flatMap fun w => w.chars ++ w.gap).flatMap encodeRune) [] = ws.map fun w => w.chars.flatMap encodeRune
  | [], n, _, _, _ => by simp [fields_end, Acc.flush]
  | w :: ws, n, hw, hg, hn => by
    obtain ⟨h1, h2, h3⟩ := hw w List.mem_cons_self
    rw [List.flatMap_cons, List.flatMap_append, List.flatMap_append, List.append_assoc] at hn ⊢
    obtain ⟨m, hm, e⟩ := fields_chars w.chars _ [] n h2 hn
    rw [e, List.nil_append]
    have hne : w.chars.flatMap encodeRune ≠ [] := by
      cases hc : w.chars with
      | nil => exact absurd hc h1
      | cons r cs =>
        rw [List.flatMap_cons]
        intro h
        exact encode_ne r (h2 r (by rw [hc]; simp)).1 (List.append_eq_nil_iff.1 h).1
    have hf : Acc.flush (w.chars.flatMap encodeRune) = [w.chars.flatMap encodeRune] := by
      unfold Acc.flush; rw [if_neg hne]
    by_cases hgap : w.gap = []
    · have hws : ws = [] := Classical.byContradiction fun h => hg [] w ws rfl h hgap
      subst hws
      rw [hgap]
      simp [fields_end, hf]
    · obtain ⟨m', hm', e'⟩ := fields_gap w.gap _ (w.chars.flatMap encodeRune) m h3 (.inl hgap) hm
      rw [e', hf, List.map_cons, List.singleton_append,
        fields_words ws m' (fun x hx => hw x (List.mem_cons_of_mem _ hx)) (fun A x B h => hg (w :: A) x B (by rw [h]; rfl)) hm']

/-- **C40** — A text of words with white space of any kind between them, around them or not, is taken apart into exactly these words. -/
theorem fields_are_words (lead : List Nat) (ws : List Word) (hl : ∀ r ∈ lead, r ∈ whiteSpace) (hw : ∀ w ∈ ws, w.ok)
    (hg : ∀ A w B, ws = A ++ w :: B → B ≠ [] → w.gap ≠ []) :
    Acc.fields ((wordsText lead ws).flatMap encodeRune) = ws.map fun w => w.chars.flatMap encodeRune := by
  unfold Acc.fields wordsText
  rw [List.flatMap_append]
  obtain ⟨m, hm, e⟩ := fields_gap lead _ [] _ hl (.inr rfl) (Nat.le_refl _)
  rw [e, fields_words ws m hw hg hm]
  simp [Acc.flush]

/-- **C40** — For every text: no word is empty. -/
theorem fields_nonempty (s : Text) : ∀ w ∈ Acc.fields s, w ≠ [] := by
  have hfl : ∀ cur : Text, ∀ w ∈ Acc.flush cur, w ≠ [] := by
    intro cur w h
    unfold Acc.flush at h
    split at h
    · cases h
    · next hc => rw [List.mem_singleton.1 h]; exact hc
  have key : ∀ n s cur, ∀ w ∈ Acc.fieldsN n s cur, w ≠ [] := by
    intro n
    induction n with
    | zero => intro s cur; rw [Acc.fieldsN]; exact hfl cur
    | succ n ih =>
      intro s cur
      cases s with
      | nil => rw [Acc.fieldsN]; exact hfl cur
      | cons b rest =>
        rw [Acc.fieldsN]
        simp only
        intro w hw
        split at hw
        · rcases List.mem_append.1 hw with h | h
          · exact hfl _ w h
          · exact ih _ _ w h
        · exact ih _ _ w hw
  exact key _ _ _

/-- **C40** — The lists of a subtitle sample entry whose strings are such texts. -/
theorem subtitle_lists (sv : SV) (l1 l2 l3 : List Nat) (w1 w2 w3 : List Word)
    (h1 : (∀ r ∈ l1, r ∈ whiteSpace) ∧ (∀ w ∈ w1, w.ok) ∧ ∀ A w B, w1 = A ++ w :: B → B ≠ [] → w.gap ≠ [])
    (h2 : (∀ r ∈ l2, r ∈ whiteSpace) ∧ (∀ w ∈ w2, w.ok) ∧ ∀ A w B, w2 = A ++ w :: B → B ≠ [] → w.gap ≠ [])
    (h3 : (∀ r ∈ l3, r ∈ whiteSpace) ∧ (∀ w ∈ w3, w.ok) ∧ ∀ A w B, w3 = A ++ w :: B → B ≠ [] → w.gap ≠ [])
    (e1 : (sv.str "Namespace").map BitVec.toNat = (wordsText l1 w1).flatMap encodeRune)
    (e2 : (sv.str "SchemaLocation").map BitVec.toNat = (wordsText l2 w2).flatMap encodeRune)
    (e3 : (sv.str "AuxiliaryMIMETypes").map BitVec.toNat = (wordsText l3 w3).flatMap encodeRune) :
    Acc.namespaceList sv = w1.map (fun w => w.chars.flatMap encodeRune) ∧
    Acc.schemaLocationList sv = w2.map (fun w => w.chars.flatMap encodeRune) ∧
    Acc.auxiliaryMIMETypesList sv = w3.map (fun w => w.chars.flatMap encodeRune) := by
  unfold Acc.namespaceList Acc.schemaLocationList Acc.auxiliaryMIMETypesList Acc.strText
  rw [e1, e2, e3]
  exact ⟨fields_are_words _ _ h1.1 h1.2.1 h1.2.2, fields_are_words _ _ h2.1 h2.2.1 h2.2.2, fields_are_words _ _ h3.1 h3.2.1 h3.2.2⟩

/-- " urn:a　é\n" -/
example : Acc.fields ([32] ++ lit "urn:a" ++ [0xe3, 0x80, 0x80, 0xc3, 0xa9, 10]) = [lit "urn:a", [0xc3, 0xa9]] := by decide +kernel

end Mp4.Props
