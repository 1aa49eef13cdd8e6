import Verif.Spec.Stringify

/-!
# C41: the text form of boxes
-/

namespace Mp4.Props

open Mp4 Mp4.Str Mp4.Spec

/-! ## UTF-8 -/

theorem decode_encode {r : Nat} (h : scalar r) : ∃ b bs, encodeRune r = b :: bs ∧ ∀ rest, decodeRune b (bs ++ rest) = (r, bs.length) := by
  unfold scalar at h
  unfold encodeRune
  by_cases h1 : r < 0x80
  · rw [if_pos h1]
    refine ⟨r, [], rfl, fun rest => ?_⟩
    unfold decodeRune
    rw [if_pos h1]
    rfl
  rw [if_neg h1]
  by_cases h2 : r < 0x800
  · rw [if_pos h2]
    refine ⟨_, _, rfl, fun rest => ?_⟩
    unfold decodeRune
    rw [if_neg (by omega), if_neg (by omega), if_pos (by omega)]
    simp only [List.cons_append, List.nil_append]
    rw [if_pos (by unfold cont; simp only [Bool.and_eq_true, decide_eq_true_eq]; omega)]
    simp only [List.length_cons, List.length_nil, Prod.mk.injEq, and_true]
    omega
  rw [if_neg h2, if_neg (by omega)]
  by_cases h3 : r < 0x10000
  · rw [if_pos h3]
    refine ⟨_, _, rfl, fun rest => ?_⟩
    unfold decodeRune
    rw [if_neg (by omega), if_neg (by omega), if_neg (by omega), if_pos (by omega)]
    simp only [List.cons_append, List.nil_append]
    rw [if_pos (by
      unfold cont
      simp only [Bool.and_eq_true, decide_eq_true_eq, Bool.or_eq_true, bne_iff_ne, ne_eq]
      omega)]
    simp only [List.length_cons, List.length_nil, Prod.mk.injEq, and_true]
    omega
  · rw [if_neg h3]
    refine ⟨_, _, rfl, fun rest => ?_⟩
    unfold decodeRune
    rw [if_neg (by omega), if_neg (by omega), if_neg (by omega), if_neg (by omega), if_pos (by omega)]
    simp only [List.cons_append, List.nil_append]
    rw [if_pos (by
      unfold cont
      simp only [Bool.and_eq_true, decide_eq_true_eq, Bool.or_eq_true, bne_iff_ne, ne_eq]
      omega)]
    simp only [List.length_cons, List.length_nil, Prod.mk.injEq, and_true]
    omega

theorem decode_scalar (b : Nat) (rest : Text) : scalar (decodeRune b rest).1 := by
  have herr : scalar runeError := by unfold scalar runeError; omega
  unfold decodeRune
  split
  · unfold scalar; simp only; omega
  split
  · exact herr
  split
  · split
    · split
      · rename_i h
        unfold cont at h
        simp only [Bool.and_eq_true, decide_eq_true_eq] at h
        unfold scalar; simp only; omega
      · exact herr
    · exact herr
  split
  · split
    · split
      · rename_i h
        unfold cont at h
        simp only [Bool.and_eq_true, decide_eq_true_eq, Bool.or_eq_true, bne_iff_ne, ne_eq] at h
        unfold scalar; simp only; omega
      · exact herr
    · exact herr
  split
  · split
    · split
      · rename_i h
        unfold cont at h
        simp only [Bool.and_eq_true, decide_eq_true_eq, Bool.or_eq_true, bne_iff_ne, ne_eq] at h
        unfold scalar; simp only; omega
      · exact herr
    · exact herr
  · exact herr

/-- Numbers that are not scalar values are encoded as the error rune U+FFFD is. -/
theorem encode_invalid {r : Nat} (h : ¬ scalar r) : encodeRune r = encodeRune 0xfffd := by
  unfold scalar at h
  unfold encodeRune
  rw [if_neg (by omega), if_neg (by omega), if_pos (by omega)]
  rfl

/-- What is not the encoding of a scalar value is taken byte by byte, each byte for the error rune U+FFFD.  (For encodings, see `decode_encode`.) -/
theorem decode_malformed {b : Nat} {rest : Text} (h : ∀ r, scalar r → ¬ encodeRune r <+: b :: rest) : decodeRune b rest = (0xfffd, 0) := by
  by_cases e : decodeRune b rest = (runeError, 0)
  · exact e
  refine absurd ?_ (h _ (decode_scalar b rest))
  have hs := decode_scalar b rest
  revert e hs
  unfold decodeRune
  split
  · intro _ _
    unfold encodeRune
    rw [if_pos (by assumption)]
    exact ⟨rest, rfl⟩
  split
  · exact fun e => absurd rfl e
  split
  · split
    · split
      · rename_i h
        intro _ _
        unfold cont at h
        simp only [Bool.and_eq_true, decide_eq_true_eq] at h
        unfold encodeRune
        simp only
        rw [if_neg (by omega), if_pos (by omega)]
        simp only [List.cons_prefix_cons, List.nil_prefix, and_true]
        omega
      · exact fun e => absurd rfl e
    · exact fun e => absurd rfl e
  split
  · split
    · split
      · rename_i h
        intro _ hs
        unfold cont at h
        simp only [Bool.and_eq_true, decide_eq_true_eq, Bool.or_eq_true, bne_iff_ne, ne_eq] at h
        unfold scalar at hs
        simp only at hs
        unfold encodeRune
        simp only
        rw [if_neg (by omega), if_neg (by omega), if_neg (by omega), if_pos (by omega)]
        simp only [List.cons_prefix_cons, List.nil_prefix, and_true]
        omega
      · exact fun e => absurd rfl e
    · exact fun e => absurd rfl e
  split
  · split
    · split
      · rename_i h
        intro _ hs
        unfold cont at h
        simp only [Bool.and_eq_true, decide_eq_true_eq, Bool.or_eq_true, bne_iff_ne, ne_eq] at h
        unfold scalar at hs
        simp only at hs
        unfold encodeRune
        simp only
        rw [if_neg (by omega), if_neg (by omega), if_neg (by omega), if_neg (by omega)]
        simp only [List.cons_prefix_cons, List.nil_prefix, and_true]
        omega
      · exact fun e => absurd rfl e
    · exact fun e => absurd rfl e
  · exact fun e => absurd rfl e

/-- the one byte 0xff of a text, and a surrogate -/
example : decodeRune 0xff [65] = (0xfffd, 0) ∧ encodeRune 0xd800 = [0xef, 0xbf, 0xbd] := by decide

theorem runesN_scalar : ∀ (n : Nat) (s : Text), ∀ r ∈ runesN n s, scalar r
  | 0, _, r, h => by simp [runesN] at h
  | _ + 1, [], r, h => by simp [runesN] at h
  | n + 1, b :: rest, r, h => by
    rcases List.mem_cons.1 h with rfl | h
    · exact decode_scalar b rest
    · exact runesN_scalar n _ r h

theorem runesN_encode : ∀ (rs : List Nat) (n : Nat), (∀ r ∈ rs, scalar r) → (rs.flatMap encodeRune).length ≤ n →
    runesN n (rs.flatMap encodeRune) = rs
  | [], 0, _, _ => rfl
  | [], _ + 1, _, _ => rfl
  | r :: rs, n, h, hn => by
    obtain ⟨b, bs, e1, e2⟩ := decode_encode (h r List.mem_cons_self)
    rw [List.flatMap_cons, e1] at hn ⊢
    cases n with
    | zero => simp at hn
    | succ n =>
      rw [List.cons_append]
      unfold runesN
      rw [e2]
      simp only [List.drop_left]
      rw [runesN_encode rs n fun x hx => h x (List.mem_cons_of_mem _ hx)]
      simp only [List.cons_append, List.length_cons, List.length_append] at hn
      omega

/-- the runes of an encoded list of runes -/
theorem runes_encode (rs : List Nat) (h : ∀ r ∈ rs, scalar r) : runes (rs.flatMap encodeRune) = rs :=
  runesN_encode rs _ h (Nat.le_refl _)

variable {beyond : Nat → Bool}

theorem escapeRune_ok (r : Nat) (h : scalar r) : scalar (escapeRune beyond r) ∧ isGraphic beyond (escapeRune beyond r) = true := by
  unfold escapeRune
  split
  · rename_i hg; exact ⟨h, hg⟩
  · exact ⟨.inl (by decide), rfl⟩

/-- Which Latin-1 characters are graphic. -/
theorem graphic_latin1 {r : Nat} (h : r < 256) : isGraphic beyond r = true ↔ ¬ latinControl r := by
  unfold isGraphic latinControl
  rw [if_pos h]
  simp only [Bool.or_eq_true, Bool.and_eq_true, decide_eq_true_eq, bne_iff_ne, ne_eq]
  omega

/-- **C41**, `EscapeUnprintables` — For every byte string, whatever characters beyond Latin-1 count as graphic: read as runes, the
result is the argument with each rune that is not graphic replaced by a dot.  So it has as many runes as the argument, and
all of them are graphic. -/
theorem escape_runes (s : Text) :
    runes (escape beyond s) = (runes s).map (fun r => if isGraphic beyond r then r else 46) ∧
    (runes (escape beyond s)).length = (runes s).length ∧ (∀ r ∈ runes (escape beyond s), isGraphic beyond r = true) ∧
    Printable beyond (escape beyond s) := by
  have hs : ∀ r ∈ (runes s).map (escapeRune beyond), scalar r ∧ isGraphic beyond r = true := by
    intro r hr
    obtain ⟨x, hx, rfl⟩ := List.mem_map.1 hr
    exact escapeRune_ok x (runesN_scalar _ s x hx)
  have h := runes_encode _ fun r hr => (hs r hr).1
  have h' : runes (escape beyond s) = (runes s).map (escapeRune beyond) := h
  refine ⟨h', by rw [h', List.length_map], by rw [h']; exact fun r hr => (hs r hr).2, _, hs, rfl⟩

/-- Printable text is left alone. -/
theorem escape_printable {t : Text} (h : Printable beyond t) : escape beyond t = t := by
  obtain ⟨rs, h1, rfl⟩ := h
  unfold escape
  rw [runes_encode rs fun r hr => (h1 r hr).1]
  congr 1
  conv => rhs; rw [← List.map_id rs]
  refine List.map_congr_left fun r hr => ?_
  unfold escapeRune
  rw [if_pos (h1 r hr).2]
  rfl

/-- Printable text has no line feed, no carriage return, and no other control character. -/
theorem printable_one_line {t : Text} (h : Printable beyond t) : ∀ b ∈ t, 32 ≤ b ∧ b ≠ 127 := by
  obtain ⟨rs, h1, rfl⟩ := h
  intro b hb
  obtain ⟨r, hr, hb⟩ := List.mem_flatMap.1 hb
  obtain ⟨-, hg⟩ := h1 r hr
  unfold encodeRune at hb
  unfold isGraphic at hg
  by_cases h2 : r < 0x80
  · rw [if_pos h2] at hb
    rw [if_pos (by omega)] at hg
    simp only [List.mem_singleton] at hb
    simp only [Bool.or_eq_true, Bool.and_eq_true, decide_eq_true_eq] at hg
    omega
  · rw [if_neg h2] at hb
    have : 0x80 ≤ b := by
      revert hb
      split
      · simp only [List.mem_cons, List.not_mem_nil, or_false]; omega
      split
      · simp only [List.mem_cons, List.not_mem_nil, or_false]; omega
      split
      · simp only [List.mem_cons, List.not_mem_nil, or_false]; omega
      · simp only [List.mem_cons, List.not_mem_nil, or_false]; omega
    omega

/-! ## Pieces of text -/

theorem printable_nil : Printable beyond [] := ⟨[], by simp, rfl⟩

theorem printable_append {a b : Text} (ha : Printable beyond a) (hb : Printable beyond b) : Printable beyond (a ++ b) := by
  obtain ⟨ra, h1, rfl⟩ := ha
  obtain ⟨rb, h2, rfl⟩ := hb
  refine ⟨ra ++ rb, ?_, by rw [List.flatMap_append]⟩
  intro r hr
  rcases List.mem_append.1 hr with hr | hr
  · exact h1 r hr
  · exact h2 r hr

theorem printable_ascii : ∀ {t : Text}, (∀ b ∈ t, 32 ≤ b ∧ b ≤ 126) → Printable beyond t
  | [], _ => printable_nil
  | b :: t, h => by
    have hb := h b List.mem_cons_self
    have : Printable beyond [b] := by
      refine ⟨[b], ?_, ?_⟩
      · intro r hr
        rw [List.mem_singleton.1 hr]
        refine ⟨.inl (by omega), ?_⟩
        unfold isGraphic
        rw [if_pos (by omega)]
        simp only [Bool.or_eq_true, Bool.and_eq_true, decide_eq_true_eq]
        omega
      · simp only [List.flatMap_cons, List.flatMap_nil, List.append_nil]
        unfold encodeRune
        rw [if_pos (by omega)]
    exact printable_append this (printable_ascii fun x hx => h x (List.mem_cons_of_mem _ hx))

theorem num_ascii {base : Nat} (hb : 0 < base) (hb' : base ≤ 16) : ∀ (fuel n : Nat) (acc : Text), (∀ b ∈ acc, 32 ≤ b ∧ b ≤ 126) →
    ∀ b ∈ numLoop base fuel n acc, 32 ≤ b ∧ b ≤ 126
  | 0, _, acc, h => h
  | fuel + 1, n, acc, h => by
    have hd : ∀ b ∈ digitText (n % base) :: acc, 32 ≤ b ∧ b ≤ 126 := by
      intro b hm
      rcases List.mem_cons.1 hm with rfl | hm
      · have := Nat.mod_lt n hb
        unfold digitText
        split <;> omega
      · exact h b hm
    unfold numLoop
    split
    · exact hd
    · exact num_ascii hb hb' fuel _ _ hd

theorem num10 (n : Nat) : ∀ b ∈ num 10 n, 32 ≤ b ∧ b ≤ 126 := num_ascii (by decide) (by decide) _ _ _ (by simp)
theorem num16 (n : Nat) : ∀ b ∈ num 16 n, 32 ≤ b ∧ b ≤ 126 := num_ascii (by decide) (by decide) _ _ _ (by simp)

theorem ascii_append {a b : Text} (ha : ∀ x ∈ a, 32 ≤ x ∧ x ≤ 126) (hb : ∀ x ∈ b, 32 ≤ x ∧ x ≤ 126) :
    ∀ x ∈ a ++ b, 32 ≤ x ∧ x ≤ 126 := by
  intro x hx
  rcases List.mem_append.1 hx with hx | hx
  · exact ha x hx
  · exact hb x hx

theorem ascii_cons {c : Nat} {b : Text} (hc : 32 ≤ c ∧ c ≤ 126) (hb : ∀ x ∈ b, 32 ≤ x ∧ x ≤ 126) : ∀ x ∈ c :: b, 32 ≤ x ∧ x ≤ 126 := by
  intro x hx
  rcases List.mem_cons.1 hx with rfl | hx
  · exact hc
  · exact hb x hx

theorem ascii_zeros (n : Nat) : ∀ x ∈ List.replicate n 48, 32 ≤ x ∧ x ≤ 126 := by
  intro x hx
  rw [(List.mem_replicate.1 hx).2]
  omega

theorem hexPad_ascii (w n : Nat) : ∀ b ∈ hexPad w n, 32 ≤ b ∧ b ≤ 126 := ascii_append (ascii_zeros _) (num16 n)

theorem inum10 (i : Int) : ∀ b ∈ inum 10 i, 32 ≤ b ∧ b ≤ 126 := by
  unfold inum
  split
  · exact ascii_cons (by omega) (num10 _)
  · exact num10 _

theorem inum16 (i : Int) : ∀ b ∈ inum 16 i, 32 ≤ b ∧ b ≤ 126 := by
  unfold inum
  split
  · exact ascii_cons (by omega) (num16 _)
  · exact num16 _

theorem fixed_ascii (bits prec : Nat) (i : Int) : ∀ b ∈ fixed bits prec i, 32 ≤ b ∧ b ≤ 126 := by
  unfold fixed
  split
  · exact inum10 _
  · unfold fixedText
    refine ascii_append (ascii_append ?_ (num10 _)) (ascii_cons (by omega) (ascii_append (ascii_zeros _) (num10 _)))
    split
    · intro x hx
      rw [List.mem_singleton.1 hx]
      omega
    · simp

theorem quoted_printable {t : Text} (h : Printable beyond t) : Printable beyond (quoted t) := by
  unfold quoted
  exact printable_append (a := [34]) (printable_ascii (by simp)) (printable_append h (printable_ascii (by simp)))

theorem quoted_escape (t : Text) : Printable beyond (quoted (escape beyond t)) := quoted_printable (escape_runes t).2.2.2

theorem flatten_ascii {l : List Text} (h : ∀ t ∈ l, ∀ x ∈ t, 32 ≤ x ∧ x ≤ 126) : ∀ x ∈ l.flatten, 32 ≤ x ∧ x ≤ 126 := by
  intro x hx
  obtain ⟨t, ht, hx⟩ := List.mem_flatten.1 hx
  exact h t ht x hx

theorem uuid_ascii (l : List Nat) : ∀ x ∈ uuidText l, 32 ≤ x ∧ x ≤ 126 := by
  have hl : ∀ t ∈ l.map (hexPad 2), ∀ x ∈ t, 32 ≤ x ∧ x ≤ 126 := by
    intro t ht
    obtain ⟨n, -, rfl⟩ := List.mem_map.1 ht
    exact hexPad_ascii 2 n
  have hd : ∀ k, ∀ t ∈ (l.map (hexPad 2)).drop k, ∀ x ∈ t, 32 ≤ x ∧ x ≤ 126 := fun k t ht => hl t (List.mem_of_mem_drop ht)
  have ht : ∀ k j, ∀ t ∈ ((l.map (hexPad 2)).drop k).take j, ∀ x ∈ t, 32 ≤ x ∧ x ≤ 126 := fun k j t ht => hd k t (List.mem_of_mem_take ht)
  unfold uuidText
  simp only
  have h0 : ∀ t ∈ (l.map (hexPad 2)).take 4, ∀ x ∈ t, 32 ≤ x ∧ x ≤ 126 := fun t ht => hl t (List.mem_of_mem_take ht)
  intro x hx
  simp only [List.mem_append, List.mem_cons] at hx
  rcases hx with (((hx | hx | hx) | hx | hx) | hx | hx) | hx | hx
  all_goals first
    | omega
    | exact flatten_ascii h0 x hx
    | exact flatten_ascii (ht _ _) x hx
    | exact flatten_ascii (hd _) x hx

theorem join_ascii {sep : Text} (hs : ∀ x ∈ sep, 32 ≤ x ∧ x ≤ 126) : ∀ {l : List Text}, (∀ t ∈ l, ∀ x ∈ t, 32 ≤ x ∧ x ≤ 126) →
    ∀ x ∈ join sep l, 32 ≤ x ∧ x ≤ 126
  | [], _ => by simp [join]
  | [t], h => by
    simp only [join]
    exact h t List.mem_cons_self
  | t :: u :: l, h => by
    simp only [join]
    exact ascii_append (ascii_append (h t List.mem_cons_self) hs) (join_ascii hs fun t ht => h t (List.mem_cons_of_mem _ ht))

theorem strData_printable {name : String} {sv : SV} {t : Text} (h : strData beyond name sv = some t) : Printable beyond t := by
  unfold strData at h
  split at h
  · split at h <;> cases h <;> exact printable_ascii (by decide)
  split at h
  · cases h; exact quoted_escape _
  · cases h

theorem strNested_printable {g f name : String} {sv : SV} {t : Text} (h : strNested beyond g f name sv = some t) : Printable beyond t := by
  unfold strNested at h
  split at h
  · cases h; exact quoted_escape _
  split at h
  · cases h; exact quoted_escape _
  split at h
  · unfold strDescriptor at h
    split at h
    · split at h <;> cases h <;> exact printable_ascii (by decide)
    · cases h
  split at h
  · exact strData_printable h
  · cases h

theorem strRoot_printable {g name : String} {sv : SV} {t : Text} (h : strRoot beyond g name sv = some t) : Printable beyond t := by
  unfold strRoot at h
  split at h
  · cases h; exact printable_ascii (fixed_ascii _ _ _)
  split at h
  · simp only at h
    split at h
    · cases h; exact quoted_escape _
    · cases h
  split at h
  · cases h; exact printable_ascii (fixed_ascii _ _ _)
  split at h
  · cases h; exact printable_ascii (fixed_ascii _ _ _)
  split at h
  · cases h; exact printable_ascii (fixed_ascii _ _ _)
  split at h
  · split at h
    · cases h
      refine printable_ascii (ascii_cons (by omega) (ascii_append (join_ascii (by simp) ?_) (by simp)))
      intro t ht
      obtain ⟨v, -, rfl⟩ := List.mem_map.1 ht
      split
      · exact uuid_ascii _
      · simp
    · cases h; exact printable_ascii (by simp)
  split at h
  · exact strData_printable h
  split at h
  · cases h; exact quoted_escape _
  split at h
  · cases h; exact quoted_escape _
  · cases h

theorem strLoop_printable {f : Val → Text → Option Text} {sep : Text} {dash : Nat → Bool} (hsep : Printable beyond sep) :
    ∀ (l : List Val) (i : Nat) (buf out : Text), (∀ v ∈ l, ∀ b o, Printable beyond b → f v b = some o → Printable beyond o) →
    Printable beyond buf → strLoop f sep dash i l buf = some out → Printable beyond out
  | [], _, buf, out, _, hb, h => by cases h; exact hb
  | v :: vs, i, buf, out, hf, hb, h => by
    unfold strLoop at h
    obtain ⟨b1, e1, h⟩ := Option.bind_eq_some_iff.1 h
    have h1 : Printable beyond (if i = 0 then buf else buf ++ sep) := by
      split
      · exact hb
      · exact printable_append hb hsep
    have h2 := hf v List.mem_cons_self _ _ h1 e1
    refine strLoop_printable hsep vs _ _ out (fun v hv => hf v (List.mem_cons_of_mem _ hv)) ?_ h
    split
    · exact printable_append h2 (printable_ascii (by simp))
    · exact h2

theorem strUint_printable {fi : Field} {w n : Nat} (h1 : fi.isString = false) (h2 : fi.iso639 = true → n < 31) :
    Printable beyond (strUint fi w n) := by
  unfold strUint
  split
  · rename_i h
    have := h2 h
    refine printable_ascii ?_
    intro x hx
    rw [List.mem_singleton.1 hx]
    omega
  split
  · exact printable_ascii (hexPad_ascii _ _)
  rw [if_neg (by rw [h1]; decide)]
  split
  · exact printable_ascii (ascii_append (by decide) (num16 _))
  · exact printable_ascii (num10 _)

theorem strInt_printable (fi : Field) (i : Int) : Printable beyond (strInt fi i) := by
  unfold strInt
  split
  · split
    · exact printable_ascii (ascii_append (by decide) (num16 _))
    · exact printable_ascii (ascii_append (by decide) (inum16 _))
  · exact printable_ascii (inum10 _)

theorem resolve_flags {c : Cfo} {ctx : Ctx} {csv : SV} {f fi : Field} (h : resolve c ctx csv f = some fi) :
    fi.isString = f.isString ∧ fi.iso639 = f.iso639 := by
  unfold resolve at h
  by_cases h1 : f.sizeDyn = true <;> by_cases h2 : f.lenDyn = true <;>
    simp only [h1, h2, if_true, Bool.false_eq_true, if_false, Option.bind_eq_bind] at h
  all_goals
    obtain ⟨a, -, h⟩ := Option.bind_eq_some_iff.1 h
    obtain ⟨b, -, h⟩ := Option.bind_eq_some_iff.1 h
    cases h
    exact ⟨rfl, rfl⟩

theorem langOK_congr {f fi : Field} (h1 : fi.isString = f.isString) (h2 : fi.iso639 = f.iso639) : ∀ (t : Ty) (v : Val),
    langOK t fi v = langOK t f v
  | .uint _, v => by cases v <;> simp only [langOK, h1, h2]
  | .int _, v => by simp only [langOK]
  | .bool, v => by simp only [langOK]
  | .str, v => by simp only [langOK]
  | .ptr t, v => by
    match v with
    | .ptr (some x) => simp only [langOK]; exact langOK_congr h1 h2 t x
    | .ptr none | .uint _ | .int _ | .bool _ | .str _ | .arr _ | .slice _ | .struct _ => simp only [langOK]
  | .arr _ t, v => by
    match v with
    | .arr l =>
      simp only [langOK, h1]
      rw [show (fun x => langOK t fi x) = fun x => langOK t f x from funext fun x => langOK_congr h1 h2 t x]
    | .ptr _ | .uint _ | .int _ | .bool _ | .str _ | .slice _ | .struct _ => simp only [langOK]
  | .slice t, v => by
    match v with
    | .slice l =>
      simp only [langOK, h1]
      rw [show (fun x => langOK t fi x) = fun x => langOK t f x from funext fun x => langOK_congr h1 h2 t x]
    | .ptr _ | .uint _ | .int _ | .bool _ | .str _ | .arr _ | .struct _ => simp only [langOK]
  | .struct _ _, v => by cases v <;> simp only [langOK]

mutual
theorem strV_printable (e : SEnv) (hi : e.indent = []) (field : String) : ∀ (t : Ty) (fi : Field) (depth : Nat) (v : Val) (buf out : Text),
    langOK t fi v = true → Printable e.beyond buf → strV e field t fi depth v buf = some out → Printable e.beyond out
  | .uint w, fi, depth, v, buf, out, hl, hb, h => by
    unfold strV at h
    cases v with
    | uint n =>
      cases h
      simp only [langOK, Bool.and_eq_true, Bool.not_eq_true', Bool.or_eq_true, decide_eq_true_eq] at hl
      refine printable_append hb (strUint_printable hl.1 fun h => hl.2.resolve_left (by rw [h]; decide))
    | _ => cases h
  | .int _, fi, depth, v, buf, out, hl, hb, h => by
    unfold strV at h
    cases v with
    | int i => cases h; exact printable_append hb (strInt_printable fi i)
    | _ => cases h
  | .bool, fi, depth, v, buf, out, hl, hb, h => by
    unfold strV at h
    cases v with
    | bool b => cases h; exact printable_append hb (printable_ascii (by cases b <;> decide))
    | _ => cases h
  | .str, fi, depth, v, buf, out, hl, hb, h => by
    unfold strV at h
    cases v with
    | str s => cases h; exact printable_append hb (quoted_escape _)
    | _ => cases h
  | .ptr t, fi, depth, v, buf, out, hl, hb, h => by
    unfold strV at h
    match v with
    | .ptr (some x) =>
      simp only [langOK] at hl
      exact strV_printable e hi field t fi depth x buf out hl hb h
    | .ptr none | .uint _ | .int _ | .bool _ | .str _ | .arr _ | .slice _ | .struct _ => cases h
  | .struct c fs, fi, depth, v, buf, out, hl, hb, h => by
    unfold strV at h
    match v with
    | .struct sv =>
      simp only [langOK] at hl
      simp only at h
      split at h
      · exact strFields_printable e hi field c fs depth sv sv buf out hl hb h
      · obtain ⟨b, e1, rfl⟩ := Option.map_eq_some_iff.1 h
        rw [List.append_nil]
        refine printable_append (strFields_printable e hi field c fs _ sv sv _ b hl ?_ e1) (printable_ascii (by simp))
        exact printable_append hb (printable_ascii (by simp))
    | .ptr _ | .uint _ | .int _ | .bool _ | .str _ | .arr _ | .slice _ => cases h
  | .arr n t, fi, depth, v, buf, out, hl, hb, h => by
    unfold strV at h
    match v with
    | .arr l =>
      simp only [langOK, Bool.or_eq_true] at hl
      simp only at h
      by_cases hs : fi.isString = true
      · rw [if_pos hs] at h
        obtain ⟨b, -, rfl⟩ := Option.map_eq_some_iff.1 h
        exact printable_append hb (quoted_escape _)
      rw [if_neg hs] at h
      have hl := hl.resolve_left hs
      rw [List.all_eq_true] at hl
      have hf : ∀ v ∈ l, ∀ b o, Printable e.beyond b → strV e field t fi (depth + 1) v b = some o → Printable e.beyond o :=
        fun v hv b o hb ho => strV_printable e hi field t fi (depth + 1) v b o (hl v hv) hb ho
      split at h
      · obtain ⟨b, e1, rfl⟩ := Option.map_eq_some_iff.1 h
        exact printable_append (strLoop_printable printable_nil l 0 _ b hf (printable_append hb (printable_ascii (by simp))) e1)
          (printable_ascii (by simp))
      split at h
      · exact strLoop_printable printable_nil l 0 _ out hf hb h
      · obtain ⟨b, e1, rfl⟩ := Option.map_eq_some_iff.1 h
        exact printable_append (strLoop_printable (printable_ascii (by simp)) l 0 _ b hf
          (printable_append hb (printable_ascii (by simp))) e1) (printable_ascii (by simp))
    | .ptr _ | .uint _ | .int _ | .bool _ | .str _ | .struct _ | .slice _ => cases h
  | .slice t, fi, depth, v, buf, out, hl, hb, h => by
    unfold strV at h
    match v with
    | .slice l =>
      simp only [langOK, Bool.or_eq_true] at hl
      simp only at h
      by_cases hs : fi.isString = true
      · rw [if_pos hs] at h
        obtain ⟨b, -, rfl⟩ := Option.map_eq_some_iff.1 h
        exact printable_append hb (quoted_escape _)
      rw [if_neg hs] at h
      have hl := hl.resolve_left hs
      rw [List.all_eq_true] at hl
      have hf : ∀ v ∈ (if fi.length = lengthUnlimited then l else l.take fi.length), ∀ b o, Printable e.beyond b →
          strV e field t fi (depth + 1) v b = some o → Printable e.beyond o := by
        intro v hv b o hb ho
        refine strV_printable e hi field t fi (depth + 1) v b o (hl v ?_) hb ho
        split at hv
        · exact hv
        · exact List.mem_of_mem_take hv
      split at h
      · obtain ⟨b, e1, rfl⟩ := Option.map_eq_some_iff.1 h
        exact printable_append (strLoop_printable printable_nil _ 0 _ b hf (printable_append hb (printable_ascii (by simp))) e1)
          (printable_ascii (by simp))
      · obtain ⟨b, e1, rfl⟩ := Option.map_eq_some_iff.1 h
        exact printable_append (strLoop_printable (printable_ascii (by simp)) _ 0 _ b hf
          (printable_append hb (printable_ascii (by simp))) e1) (printable_ascii (by simp))
    | .ptr _ | .uint _ | .int _ | .bool _ | .str _ | .struct _ | .arr _ => cases h
theorem strFields_printable (e : SEnv) (hi : e.indent = []) (field : String) (c : Option Cfo) : ∀ (fs : Fields) (depth : Nat) (sv rest : SV)
    (buf out : Text), langFields fs rest = true → Printable e.beyond buf → strFields e field c fs depth sv rest buf = some out →
    Printable e.beyond out
  | .nil, _, _, _, buf, out, _, hb, h => by
    unfold strFields at h
    cases h
    exact hb
  | .cons f t fs, depth, sv, rest, buf, out, hl, hb, h => by
    unfold strFields at h
    simp only at h
    cases hr : resolve (c.getD e.bd.cfo) e.ctx (if c.isSome = true then sv else e.root) f with
    | none => rw [hr] at h; cases h
    | some fi =>
      rw [hr] at h
      match rest, hl, h with
      | [], _, h => cases h
      | (n, v) :: rest, hl, h =>
        simp only [langFields, Bool.and_eq_true] at hl
        obtain ⟨⟨hn, hv⟩, hl⟩ := hl
        simp only at h
        by_cases hsk : (¬ isTarget (c.getD e.bd.cfo) e.ctx e.root (if c.isSome = true then sv else e.root) fi = true ∨ f.cnst ≠ "" ∨
            f.hidden = true)
        · rw [if_pos hsk] at h
          exact strFields_printable e hi field c fs depth sv rest buf out hl hb h
        · rw [if_neg hsk] at h
          obtain ⟨b1, e1, h⟩ := Option.bind_eq_some_iff.1 h
          have hname : Printable e.beyond (lit f.name ++ [61]) := by
            refine printable_append (printable_ascii ?_) (printable_ascii (by simp))
            intro b hb
            have := List.all_eq_true.1 hn b hb
            simpa using this
          have hbuf : Printable e.beyond (if f.extend = true then buf else
              (if e.indent ≠ [] then buf ++ indentText e (depth + 1)
                else if buf ≠ [] ∧ buf.getLast? ≠ some 123 then buf ++ [32] else buf) ++ (lit f.name ++ [61])) := by
            split
            · exact hb
            · refine printable_append ?_ hname
              rw [if_neg (by rw [hi]; simp)]
              split
              · exact printable_append hb (printable_ascii (by simp))
              · exact hb
          generalize (if f.extend = true then buf else
              (if e.indent ≠ [] then buf ++ indentText e (depth + 1)
                else if buf ≠ [] ∧ buf.getLast? ≠ some 123 then buf ++ [32] else buf) ++ (lit f.name ++ [61])) = buf1 at hbuf e1
          refine strFields_printable e hi field c fs depth sv rest _ out hl ?_ h
          rw [if_neg (by rw [hi]; simp)]
          revert e1
          cases hc : (if c.isSome = true then strNested e.beyond e.bd.goName field f.name (if c.isSome = true then sv else e.root)
              else strRoot e.beyond e.bd.goName f.name (if c.isSome = true then sv else e.root)) with
          | some t =>
            intro e1
            cases e1
            refine printable_append hbuf ?_
            split at hc
            · exact strNested_printable hc
            · exact strRoot_printable hc
          | none =>
            intro e1
            simp only at e1
            split at e1
            · cases e1; exact printable_append hbuf (printable_ascii (num10 _))
            split at e1
            · cases e1
              exact printable_append (printable_append hbuf (printable_ascii (by decide))) (printable_ascii (hexPad_ascii _ _))
            · obtain ⟨r1, r2⟩ := resolve_flags hr
              exact strV_printable e hi f.name t fi depth v buf1 b1 (by rw [langOK_congr r1 r2]; exact hv) hbuf e1
end

/-- **C41**, partial, `Stringify` — The text of every box whose language codes have letters below 31 is printable, and so is on one line.

Missing: the letters of language codes are shown without escaping; see `language_delete`, for a box that comes out of a file, and
`language_newline`. -/
theorem stringify_printable_partial (bd : BoxDef) (sv : SV) (ctx : Ctx) (t : Text) (hl : langFields bd.fields sv = true)
    (h : stringify beyond bd sv [] ctx = some t) : Printable beyond t :=
  strFields_printable ⟨beyond, bd, sv, ctx, []⟩ rfl "" none bd.fields 0 sv sv [] t hl printable_nil h

mutual
theorem langOK_of : ∀ (t : Ty) (f : Field) (v : Val), noLang t f = true → langOK t f v = true
  | .uint _, f, v, h => by
    simp only [noLang, Bool.and_eq_true, Bool.not_eq_true'] at h
    cases v <;> simp [langOK, h.1, h.2]
  | .int _, f, v, h => by simp only [langOK]
  | .bool, f, v, h => by simp only [langOK]
  | .str, f, v, h => by simp only [langOK]
  | .ptr t, f, v, h => by
    simp only [noLang] at h
    match v with
    | .ptr (some x) => simp only [langOK]; exact langOK_of t f x h
    | .ptr none | .uint _ | .int _ | .bool _ | .str _ | .arr _ | .slice _ | .struct _ => simp only [langOK]
  | .arr _ t, f, v, h => by
    simp only [noLang, Bool.or_eq_true] at h
    match v with
    | .arr l =>
      simp only [langOK, Bool.or_eq_true, List.all_eq_true]
      exact h.imp id fun h x _ => langOK_of t f x h
    | .ptr _ | .uint _ | .int _ | .bool _ | .str _ | .slice _ | .struct _ => simp only [langOK]
  | .slice t, f, v, h => by
    simp only [noLang, Bool.or_eq_true] at h
    match v with
    | .slice l =>
      simp only [langOK, Bool.or_eq_true, List.all_eq_true]
      exact h.imp id fun h x _ => langOK_of t f x h
    | .ptr _ | .uint _ | .int _ | .bool _ | .str _ | .arr _ | .struct _ => simp only [langOK]
  | .struct _ fs, f, v, h => by
    simp only [noLang] at h
    match v with
    | .struct sv => simp only [langOK]; exact langFields_of fs sv h
    | .ptr _ | .uint _ | .int _ | .bool _ | .str _ | .arr _ | .slice _ => simp only [langOK]
theorem langFields_of : ∀ (fs : Fields) (sv : SV), noLangFields fs = true → langFields fs sv = true
  | .nil, _, _ => by simp only [langFields]
  | .cons f t fs, sv, h => by
    simp only [noLangFields, Bool.and_eq_true] at h
    match sv with
    | [] => simp only [langFields]
    | (n, v) :: rest =>
      simp only [langFields, Bool.and_eq_true]
      exact ⟨⟨h.1.1, langOK_of t f v h.1.2⟩, langFields_of fs rest h.2⟩
end

/-- **C41**, `Stringify` — For every registered type of box other than `mdhd` and the 3GPP strings, the text of every value is
printable, and so is on one line. -/
theorem stringify_printable (bd : BoxDef) (hbd : bd ∈ Cat.allDefs) (h1 : bd.goName ≠ "Mdhd") (h2 : bd.goName ≠ "Udta3GppString")
    (sv : SV) (ctx : Ctx) (t : Text) (h : stringify beyond bd sv [] ctx = some t) : Printable beyond t := by
  have key : ∀ p ∈ Cat.allDefs.map (fun b => (b.goName, noLangFields b.fields)), p.1 ≠ "Mdhd" → p.1 ≠ "Udta3GppString" → p.2 = true := by
    decide +kernel
  have := key (bd.goName, noLangFields bd.fields) (List.mem_map.2 ⟨bd, hbd, rfl⟩) h1 h2
  exact stringify_printable_partial bd sv ctx t (langFields_of _ _ this) h

/-! ## Examples -/

/-- an `stts` box with two runs -/
def sttsVal : SV := [("FullBox", .struct [("Version", .uint 0), ("Flags", .arr [.uint 0, .uint 0, .uint 0])]), ("EntryCount", .uint 1),
  ("Entries", .slice [.struct [("SampleCount", .uint 10), ("SampleDelta", .uint 512)]])]

theorem sttsVal_text : stringify (fun _ => true) Cat.bdStts sttsVal [] {} =
    some (lit "Version=0 Flags=0x000000 EntryCount=1 Entries=[{SampleCount=10 SampleDelta=512}]") := by decide +kernel

example := stringify_printable Cat.bdStts (by unfold Cat.allDefs; simp only [List.mem_cons, true_or, or_true]) (by decide) (by decide) sttsVal {} _ sttsVal_text

/-- an `mdhd` box with this language code -/
def mdhdVal (l : List Nat) : SV := Cat.bdMdhd.fields.zero.set "Language" (.arr (l.map .uint))

example := stringify_printable_partial (beyond := fun _ => true) Cat.bdMdhd (mdhdVal [21, 14, 4]) {} _ (by decide +kernel)
  (show _ = some (lit "Version=0 Flags=0x000000 CreationTimeV0=0 ModificationTimeV0=0 Timescale=0 DurationV0=0 Language=\"und\" PreDefined=0")
    by decide +kernel)

/-- **C41**, refuted in full — A `mdhd` box as it may come out of a file (each letter has five bits): the text has the control character
DEL. -/
theorem language_delete : ∃ t, stringify (fun _ => true) Cat.bdMdhd (mdhdVal [31, 14, 4]) [] {} = some t ∧ 127 ∈ t :=
  ⟨_, rfl, by decide +kernel⟩

/-- **C41**, refuted in full — A language code outside of the range puts a line feed into the text. -/
theorem language_newline : ∃ t, stringify (fun _ => true) Cat.bdMdhd (mdhdVal [0xaa, 14, 4]) [] {} = some t ∧ 10 ∈ t :=
  ⟨_, rfl, by decide +kernel⟩

/-! ## C52: numbers -/

/-- the number that a text of digits stands for -/
def textValue (base : Nat) (t : Text) : Nat := t.foldl (fun a c => a * base + (if c < 58 then c - 48 else c - 87)) 0

theorem textValue_foldl (base : Nat) : ∀ (t : Text) (a : Nat),
    t.foldl (fun a c => a * base + (if c < 58 then c - 48 else c - 87)) a = a * base ^ t.length + textValue base t
  | [], a => by simp [textValue]
  | c :: t, a => by
    unfold textValue
    rw [List.foldl_cons, List.foldl_cons, textValue_foldl base t, textValue_foldl base t, List.length_cons, Nat.pow_succ,
      Nat.zero_mul, Nat.zero_add, Nat.add_mul, Nat.mul_assoc, Nat.mul_comm base, Nat.add_assoc]

theorem textValue_cons (base c : Nat) (t : Text) :
    textValue base (c :: t) = (if c < 58 then c - 48 else c - 87) * base ^ t.length + textValue base t := by
  conv => lhs; unfold textValue
  rw [List.foldl_cons, textValue_foldl, Nat.zero_mul, Nat.zero_add]

theorem digit_value {d : Nat} (h : d < 16) : (if digitText d < 58 then digitText d - 48 else digitText d - 87) = d := by
  unfold digitText
  split <;> split <;> omega

theorem numLoop_value {base : Nat} (h1 : 2 ≤ base) (h2 : base ≤ 16) : ∀ (fuel n : Nat) (acc : Text), n < fuel →
    textValue base (numLoop base fuel n acc) = n * base ^ acc.length + textValue base acc
  | 0, _, _, h => by omega
  | fuel + 1, n, acc, h => by
    have hm := Nat.mod_lt n (show 0 < base by omega)
    have hv := digit_value (d := n % base) (by omega)
    unfold numLoop
    split
    · rename_i h0
      have : n % base = n := Nat.mod_eq_of_lt ((Nat.div_eq_zero_iff_lt (by omega)).1 h0)
      rw [textValue_cons, hv, this]
    · rename_i h0
      have hlt : n / base < n := Nat.div_lt_self (Nat.pos_of_ne_zero (by rintro rfl; simp at h0)) h1
      rw [numLoop_value h1 h2 fuel _ _ (by omega), textValue_cons, hv, List.length_cons, Nat.pow_succ, ← Nat.add_assoc,
        Nat.mul_comm _ base, ← Nat.mul_assoc, ← Nat.add_mul, Nat.mul_comm (n / base), Nat.div_add_mod]

/-- **C52**, partial — Numbers are shown by their digits: read in the base in which it was written, the text of a number is that number. -/
theorem number_text {base : Nat} (h1 : 2 ≤ base) (h2 : base ≤ 16) (n : Nat) : textValue base (num base n) = n := by
  unfold num
  rw [numLoop_value h1 h2 _ _ _ (by omega)]
  simp [textValue]

/-- **C52**, partial — An unsigned integer that is neither text nor part of a language code or UUID is shown in decimal digits, or after `0x` in
hexadecimal ones, as chosen by tag and type. -/
theorem uint_text_partial (fi : Field) (w n : Nat) (h1 : fi.iso639 = false) (h2 : fi.uuid = false) (h3 : fi.isString = false) :
    (¬ (fi.hex = true ∨ (fi.dec = false ∧ w = 8)) ∧ textValue 10 (strUint fi w n) = n) ∨
    ((fi.hex = true ∨ (fi.dec = false ∧ w = 8)) ∧ ∃ t, strUint fi w n = 48 :: 120 :: t ∧ textValue 16 t = n) := by
  unfold strUint
  rw [if_neg (by rw [h1]; decide), if_neg (by rw [h2]; decide), if_neg (by rw [h3]; decide)]
  by_cases h : (fi.hex || (!fi.dec && w == 8)) = true
  · rw [if_pos h]
    refine .inr ⟨by simpa using h, num 16 n, rfl, number_text (by decide) (by decide) n⟩
  · rw [if_neg h]
    refine .inl ⟨by simpa using h, number_text (by decide) (by decide) n⟩

example := uint_text_partial { name := "Timescale" } 32 90000 rfl rfl rfl
example : num 10 90000 = lit "90000" ∧ num 16 255 = lit "ff" := by decide +kernel

/-- **C52**, refuted — The field `Version` of an item and of a `dOps` box is not shown: in its place there is the version of the box, which is 0
since these boxes have no `FullBox` header. -/
theorem version_not_shown :
    (stringify (fun _ => true) Cat.bdItem Cat.bdItem.fields.zero [] {}).isSome ∧
    (stringify (fun _ => true) Cat.bdDOps Cat.bdDOps.fields.zero [] {}).isSome ∧
    stringify (fun _ => true) Cat.bdItem (Cat.bdItem.fields.zero.set "Version" (.uint 7)) [] {} =
      stringify (fun _ => true) Cat.bdItem Cat.bdItem.fields.zero [] {} ∧
    stringify (fun _ => true) Cat.bdDOps (Cat.bdDOps.fields.zero.set "Version" (.uint 7)) [] {} =
      stringify (fun _ => true) Cat.bdDOps Cat.bdDOps.fields.zero [] {} := by decide +kernel

example : escape (fun _ => true) [97, 10, 98, 0xff, 0xc3, 0xa9] = [97, 46, 98, 0xef, 0xbf, 0xbd, 0xc3, 0xa9] := by decide

end Mp4.Props
