import Verif.Spec.Json
import Verif.Model.ToolJson
import Verif.Props.Stringify

/-!
# What `encoding/json` writes is read back by the reader of RFC 8259
-/

namespace Mp4.JsonText

open Mp4 Mp4.Str Mp4.Tool Mp4.Spec Mp4.Props

/-! ## Strings -/

/-- the code points that `jsonCharsN` writes -/
def pointsN (short : Bool) : Nat → Text → List Nat
  | 0, _ => []
  | _ + 1, [] => []
  | n + 1, b :: rest =>
    (if b < 0x80 then jsonByte short b
      else if (decodeRune b rest).1 = runeError ∧ (decodeRune b rest).2 = 0 then lit "\\ufffd"
      else if (decodeRune b rest).1 = 0x2028 ∨ (decodeRune b rest).1 = 0x2029 then lit "\\u202" ++ num 16 ((decodeRune b rest).1 % 16)
      else [(decodeRune b rest).1]) ++ pointsN short n (rest.drop (decodeRune b rest).2)

def points (short : Bool) (s : Text) : List Nat := pointsN short s.length s

theorem encode_low {b : Nat} (h : b < 0x80) : encodeRune b = [b] := by unfold encodeRune; rw [if_pos h]

theorem encode_ascii {t : Text} (h : ∀ b ∈ t, b < 0x80) : t.flatMap encodeRune = t := by
  induction t with
  | nil => rfl
  | cons b t ih =>
    rw [List.flatMap_cons, encode_low (h b List.mem_cons_self), ih fun b hb => h b (List.mem_cons_of_mem _ hb)]
    rfl

theorem decode_copied {b : Nat} {rest : Text} (h : ¬ ((decodeRune b rest).1 = runeError ∧ (decodeRune b rest).2 = 0)) :
    encodeRune (decodeRune b rest).1 = b :: rest.take (decodeRune b rest).2 := by
  have h1 : ∃ r, scalar r ∧ encodeRune r <+: b :: rest := by
    false_or_by_contra
    rename_i hc
    have := decode_malformed (b := b) (rest := rest) fun r hr hp => hc ⟨r, hr, hp⟩
    rw [this] at h
    exact h ⟨rfl, rfl⟩
  obtain ⟨r, hr, t, ht⟩ := h1
  obtain ⟨b', bs, e1, e2⟩ := decode_encode hr
  rw [e1] at ht
  injection ht with h1 h2
  subst h1
  have h2 : bs ++ t = rest := h2
  rw [← h2, e2 t, e1, List.take_left]

theorem jsonByte_low (short : Bool) {b : Nat} (h : b < 0x80) : ∀ c ∈ jsonByte short b, c < 0x80 := by
  have : ∀ short, ∀ b < 128, ∀ c ∈ jsonByte short b, c < 0x80 := by decide +kernel
  exact this short b h

theorem chars_points (short : Bool) : ∀ (n : Nat) (s : Text), jsonCharsN short n s = (pointsN short n s).flatMap encodeRune
  | 0, _ => rfl
  | _ + 1, [] => rfl
  | n + 1, b :: rest => by
    unfold jsonCharsN pointsN
    rw [List.flatMap_append, ← chars_points short n]
    simp only
    congr 1
    by_cases h1 : b < 0x80
    · rw [if_pos h1, if_pos h1, encode_ascii (jsonByte_low short h1)]
    rw [if_neg h1, if_neg h1]
    by_cases h2 : (decodeRune b rest).1 = runeError ∧ (decodeRune b rest).2 = 0
    · rw [if_pos h2, if_pos h2]
      exact (encode_ascii (by decide +kernel)).symm
    rw [if_neg h2, if_neg h2]
    by_cases h3 : (decodeRune b rest).1 = 0x2028 ∨ (decodeRune b rest).1 = 0x2029
    · rw [if_pos h3, if_pos h3]
      rcases h3 with h3 | h3 <;> rw [h3] <;> exact (encode_ascii (by decide +kernel)).symm
    · rw [if_neg h3, if_neg h3, List.flatMap_singleton, decode_copied h2]

theorem points_scalar (short : Bool) : ∀ (n : Nat) (s : Text), ∀ c ∈ pointsN short n s, scalar c
  | 0, _, c, h => by cases h
  | _ + 1, [], c, h => by cases h
  | n + 1, b :: rest, c, h => by
    have low : ∀ {c : Nat}, c < 0x80 → scalar c := fun h => .inl (by omega)
    unfold pointsN at h
    rcases List.mem_append.1 h with h | h
    · by_cases h1 : b < 0x80
      · rw [if_pos h1] at h; exact low (jsonByte_low short h1 c h)
      rw [if_neg h1] at h
      by_cases h2 : (decodeRune b rest).1 = runeError ∧ (decodeRune b rest).2 = 0
      · rw [if_pos h2] at h
        exact low ((by decide +kernel : ∀ c ∈ lit "\\ufffd", c < 0x80) c h)
      rw [if_neg h2] at h
      by_cases h3 : (decodeRune b rest).1 = 0x2028 ∨ (decodeRune b rest).1 = 0x2029
      · rw [if_pos h3] at h
        rcases h3 with h3 | h3 <;> rw [h3] at h
        · exact low ((by decide +kernel : ∀ c ∈ lit "\\u202" ++ num 16 (0x2028 % 16), c < 0x80) c h)
        · exact low ((by decide +kernel : ∀ c ∈ lit "\\u202" ++ num 16 (0x2029 % 16), c < 0x80) c h)
      · rw [if_neg h3, List.mem_singleton] at h
        rw [h]; exact decode_scalar b rest
    · exact points_scalar short n _ c h

/-- a character as it may stand in a string -/
def shows (t : List Nat) (r : Nat) : Bool :=
  match t with
  | [c] => c == r && 32 ≤ c && c != 34 && c != 92
  | [c, e] => c == 92 && e != 117 && Json.escaped e == some r
  | [c, e, h1, h2, h3, h4] => c == 92 && e == 117 && Json.hex4 h1 h2 h3 h4 == some r
  | _ => false

theorem string_end (tail : List Nat) : Json.string (34 :: tail) = some ([], tail) := by
  rw [Json.string.eq_def]
  cases tail <;> simp only [if_true]

theorem string_plain {c : Nat} (h1 : 32 ≤ c) (h2 : c ≠ 34) (h3 : c ≠ 92) (tail : List Nat) : Json.string (c :: tail) = (Json.string tail).map fun x => (c :: x.1, x.2) := by
  rw [Json.string.eq_def]
  cases tail with
  | nil => simp only [if_neg h2]; rfl
  | cons e tail => simp only [if_neg h2, if_neg h3, if_neg (show ¬ c < 32 by omega)]

theorem string_escaped {e : Nat} (h : e ≠ 117) (tail : List Nat) : Json.string (92 :: e :: tail) = (Json.escaped e).bind fun r => (Json.string tail).map fun x => (r :: x.1, x.2) := by
  rw [Json.string.eq_def]
  simp only [if_neg h, if_neg (show ¬ (92 = 34) by decide), if_true]

theorem string_hex (h1 h2 h3 h4 : Nat) (tail : List Nat) : Json.string (92 :: 117 :: h1 :: h2 :: h3 :: h4 :: tail) =
    (Json.hex4 h1 h2 h3 h4).bind fun r => (Json.string tail).map fun x => (r :: x.1, x.2) := by
  rw [Json.string.eq_def]
  simp only [if_neg (show ¬ (92 = 34) by decide), if_true]

theorem string_char {t : List Nat} {r : Nat} (h : shows t r = true) (tail : List Nat) :
    Json.string (t ++ tail) = (Json.string tail).map fun x => (r :: x.1, x.2) := by
  unfold shows at h
  split at h
  · next c =>
    simp only [Bool.and_eq_true, beq_iff_eq, bne_iff_ne, ne_eq, decide_eq_true_eq] at h
    obtain ⟨⟨⟨rfl, h1⟩, h2⟩, h3⟩ := h
    exact string_plain h1 h2 h3 tail
  · next c e =>
    simp only [Bool.and_eq_true, beq_iff_eq, bne_iff_ne, ne_eq] at h
    obtain ⟨⟨rfl, h1⟩, h2⟩ := h
    show Json.string (92 :: e :: tail) = _
    rw [string_escaped h1, h2]
    rfl
  · next c e h1 h2 h3 h4 =>
    simp only [Bool.and_eq_true, beq_iff_eq] at h
    obtain ⟨⟨rfl, rfl⟩, h5⟩ := h
    show Json.string (92 :: 117 :: h1 :: h2 :: h3 :: h4 :: tail) = _
    rw [string_hex, h5]
    rfl
  · cases h

theorem string_points (short : Bool) : ∀ (n : Nat) (s : Text) (tail : List Nat),
    Json.string (pointsN short n s ++ 34 :: tail) = some (runesN n s, tail)
  | 0, _, tail => string_end tail
  | _ + 1, [], tail => string_end tail
  | n + 1, b :: rest, tail => by
    have key : ∀ t, shows t (decodeRune b rest).1 = true → Json.string (t ++ pointsN short n (rest.drop (decodeRune b rest).2) ++ 34 :: tail) =
        some (runesN (n + 1) (b :: rest), tail) := by
      intro t ht
      rw [List.append_assoc, string_char ht, string_points short n _ tail]
      rfl
    unfold pointsN
    by_cases h1 : b < 0x80
    · rw [if_pos h1]
      refine key _ ?_
      have : (decodeRune b rest).1 = b := by unfold decodeRune; rw [if_pos h1]
      rw [this]
      exact (by decide +kernel : ∀ short, ∀ b < 128, shows (jsonByte short b) b = true) short b h1
    rw [if_neg h1]
    by_cases h2 : (decodeRune b rest).1 = runeError ∧ (decodeRune b rest).2 = 0
    · rw [if_pos h2]
      refine key _ ?_
      rw [h2.1]
      decide +kernel
    rw [if_neg h2]
    by_cases h3 : (decodeRune b rest).1 = 0x2028 ∨ (decodeRune b rest).1 = 0x2029
    · rw [if_pos h3]
      refine key _ ?_
      rcases h3 with h3 | h3 <;> rw [h3] <;> decide +kernel
    · rw [if_neg h3]
      refine key _ ?_
      have h4 : 0x80 ≤ (decodeRune b rest).1 := by
        false_or_by_contra
        have e := decode_copied h2
        rw [encode_low (by omega)] at e
        injection e
        omega
      simp only [shows, beq_self_eq_true, Bool.true_and, Bool.and_eq_true, decide_eq_true_eq, bne_iff_ne, ne_eq]
      omega

/-! ## Numbers -/

/-- what is behind a value does not go on with a number -/
def Stop : List Nat → Prop
  | [] => True
  | c :: _ => c = 10 ∨ c = 44

theorem Stop.digit {rest : List Nat} (h : Stop rest) : rest.dropWhile Json.digit = rest := by
  cases rest with
  | nil => rfl
  | cons c cs => rcases h with rfl | rfl <;> rfl

theorem dropWhile_stop {rest : List Nat} (h : Stop rest) : ∀ t : List Nat, (t ++ rest).dropWhile Json.digit = t.dropWhile Json.digit ++ rest
  | [] => h.digit
  | c :: t => by
    rw [List.cons_append, List.dropWhile_cons, List.dropWhile_cons]
    split
    · exact dropWhile_stop h t
    · rfl

theorem behindInt_append {rest : List Nat} (h : Stop rest) {t u : List Nat} (ht : Json.behindInt t = some u) : Json.behindInt (t ++ rest) = some (u ++ rest) := by
  cases t with
  | nil => cases ht
  | cons c t =>
    rw [List.cons_append]
    simp only [Json.behindInt] at ht ⊢
    by_cases h0 : c = 48
    · rw [if_pos h0] at ht ⊢; cases ht; rfl
    rw [if_neg h0] at ht ⊢
    by_cases hd : Json.digit c = true
    · rw [if_pos hd] at ht ⊢; cases ht; rw [dropWhile_stop h]
    · rw [if_neg hd] at ht; cases ht

theorem behindDigits_append {rest : List Nat} (h : Stop rest) {t u : List Nat} (ht : Json.behindDigits t = some u) : Json.behindDigits (t ++ rest) = some (u ++ rest) := by
  cases t with
  | nil => cases ht
  | cons c t =>
    rw [List.cons_append]
    simp only [Json.behindDigits] at ht ⊢
    split at ht
    · next hd => cases ht; simp only [hd, if_true, dropWhile_stop h]
    · cases ht

theorem behindFrac_append {rest : List Nat} (h : Stop rest) {t u : List Nat} (ht : Json.behindFrac t = some u) : Json.behindFrac (t ++ rest) = some (u ++ rest) := by
  cases t with
  | nil =>
    cases ht
    cases rest with
    | nil => rfl
    | cons c cs => rcases h with rfl | rfl <;> rfl
  | cons c t =>
    rw [List.cons_append]
    simp only [Json.behindFrac] at ht ⊢
    by_cases h0 : c = 46
    · rw [if_pos h0] at ht ⊢; exact behindDigits_append h ht
    · rw [if_neg h0] at ht ⊢; cases ht; rfl

theorem behindExp_append {rest : List Nat} (h : Stop rest) {t u : List Nat} (ht : Json.behindExp t = some u) : Json.behindExp (t ++ rest) = some (u ++ rest) := by
  cases t with
  | nil =>
    cases ht
    cases rest with
    | nil => rfl
    | cons c cs => rcases h with rfl | rfl <;> rfl
  | cons c t =>
    rw [List.cons_append]
    simp only [Json.behindExp] at ht ⊢
    by_cases h0 : c = 101 ∨ c = 69
    · rw [if_pos h0] at ht ⊢
      cases t with
      | nil => cases ht
      | cons x t =>
        have e : Json.dropSign (x :: t ++ rest) = Json.dropSign (x :: t) ++ rest := by
          simp only [List.cons_append, Json.dropSign]
          split <;> rfl
        rw [e]
        exact behindDigits_append h ht
    · rw [if_neg h0] at ht ⊢; cases ht; rfl

theorem number_append {rest : List Nat} (h : Stop rest) {t : List Nat} (ht : Json.IsNumber t) : Json.behindNumber (t ++ rest) = some rest := by
  unfold Json.IsNumber Json.behindNumber at ht
  unfold Json.behindNumber
  cases t with
  | nil => cases ht
  | cons c t =>
    have e : Json.dropMinus (c :: t ++ rest) = Json.dropMinus (c :: t) ++ rest := by
      simp only [List.cons_append, Json.dropMinus]
      split <;> rfl
    rw [e]
    cases h1 : Json.behindInt (Json.dropMinus (c :: t)) with
    | none => rw [h1] at ht; cases ht
    | some u =>
      rw [h1] at ht
      rw [behindInt_append h h1]
      simp only [Option.bind_some] at ht ⊢
      cases h2 : Json.behindFrac u with
      | none => rw [h2] at ht; cases ht
      | some w =>
        rw [h2] at ht
        rw [behindFrac_append h h2]
        simp only [Option.bind_some] at ht ⊢
        rw [behindExp_append h ht]
        rfl

theorem number_first {t : List Nat} (ht : Json.IsNumber t) : ∃ c cs, t = c :: cs ∧ (c = 45 ∨ (48 ≤ c ∧ c ≤ 57)) := by
  cases t with
  | nil => cases ht
  | cons c t =>
    refine ⟨c, t, rfl, ?_⟩
    simp only [Json.IsNumber, Json.behindNumber, Json.dropMinus] at ht
    by_cases h : c = 45
    · exact .inl h
    rw [if_neg h] at ht
    simp only [Json.behindInt] at ht
    by_cases h1 : c = 48
    · exact .inr (by omega)
    rw [if_neg h1] at ht
    by_cases h2 : Json.digit c
    · unfold Json.digit at h2; simp at h2; exact .inr h2
    · rw [if_neg h2] at ht; cases ht

theorem scalar_number {t rest : List Nat} (ht : Json.IsNumber t) (h : Stop rest) : Json.scalar (t ++ rest) = some (.num t, rest) := by
  obtain ⟨c, cs, rfl, hc⟩ := number_first ht
  have e : Json.scalar (c :: cs ++ rest) = (Json.behindNumber (c :: cs ++ rest)).map fun r => (.num ((c :: cs ++ rest).take ((c :: cs ++ rest).length - r.length)), r) := by
    rw [List.cons_append]
    unfold Json.scalar
    split
    all_goals first | rfl | (next heq => injection heq with e1 e2; exfalso; omega)
  rw [e, number_append h ht]
  have e2 : (c :: cs ++ rest).length - rest.length = (c :: cs).length := by simp only [List.length_append]; omega
  simp only [Option.map_some, e2, List.take_left]

theorem digits_loop : ∀ (fuel n : Nat) (acc : Text), n < fuel → (∀ c ∈ acc, Json.digit c = true) → ∃ c cs, numLoop 10 fuel n acc = c :: cs ∧ Json.digit c = true ∧
    (∀ c ∈ cs, Json.digit c = true) ∧ (c = 48 → n = 0 ∧ cs = acc)
  | 0, n, acc, h, _ => by omega
  | fuel + 1, n, acc, h, ha => by
    have hdig : Json.digit (digitText (n % 10)) = true := by
      have : n % 10 < 10 := by omega
      simp only [digitText, this, if_true, Json.digit, Bool.and_eq_true, decide_eq_true_eq]
      omega
    unfold numLoop
    by_cases h0 : n / 10 = 0
    · rw [if_pos h0]
      refine ⟨_, _, rfl, hdig, ha, fun hc => ⟨?_, rfl⟩⟩
      have : n % 10 < 10 := by omega
      simp only [digitText, this, if_true] at hc
      omega
    · rw [if_neg h0]
      obtain ⟨c, cs, e, h1, h2, h3⟩ := digits_loop fuel (n / 10) (digitText (n % 10) :: acc) (by omega) (by
        intro c hc
        rcases List.mem_cons.1 hc with rfl | hc
        · exact hdig
        · exact ha c hc)
      exact ⟨c, cs, e, h1, h2, fun hc => absurd (h3 hc).1 h0⟩

theorem num_number (n : Nat) : Json.IsNumber (num 10 n) ∧ ∀ c ∈ num 10 n, Json.digit c = true := by
  obtain ⟨c, cs, e, h1, h2, h3⟩ := digits_loop (n + 1) n [] (by omega) (by simp)
  have e' : num 10 n = c :: cs := e
  rw [e']
  refine ⟨?_, fun x hx => by 
    rcases List.mem_cons.1 hx with rfl | hx
    · exact h1
    · exact h2 x hx⟩
  simp only [Json.IsNumber, Json.behindNumber, Json.dropMinus]
  have hc : 48 ≤ c ∧ c ≤ 57 := by unfold Json.digit at h1; simpa using h1
  rw [if_neg (by omega)]
  simp only [Json.behindInt]
  by_cases h : c = 48
  · rw [if_pos h, (h3 h).2]; rfl
  · rw [if_neg h, if_pos h1]
    have : cs.dropWhile Json.digit = [] := by
      clear e e' h3
      induction cs with
      | nil => rfl
      | cons x cs ih => rw [List.dropWhile_cons, if_pos (h2 x List.mem_cons_self)]; exact ih fun y hy => h2 y (List.mem_cons_of_mem _ hy)
    rw [this]
    rfl

theorem nat_num (n : Nat) : Json.nat? (.num (num 10 n)) = some n := by
  have h := (num_number n).2
  simp only [Json.nat?]
  rw [if_pos (List.all_eq_true.2 h)]
  have e : ∀ (t : List Nat) (a : Nat), (∀ c ∈ t, Json.digit c = true) → t.foldl (fun n c => n * 10 + (c - 48)) a = t.foldl (fun a c => a * 10 + (if c < 58 then c - 48 else c - 87)) a := by
    intro t
    induction t with
    | nil => intros; rfl
    | cons c t ih =>
      intro a hc
      rw [List.foldl_cons, List.foldl_cons, ih _ fun x hx => hc x (List.mem_cons_of_mem _ hx)]
      have := hc c List.mem_cons_self
      unfold Json.digit at this
      simp at this
      rw [if_pos (by omega)]
  rw [e _ _ h]
  exact congrArg some (number_text (by decide) (by decide) n)

/-! ## Values -/

mutual
/-- what the value stands for -/
def sem : GoVal → Json
  | .bool b => .bool b
  | .uint n => .num (num 10 n)
  | .float t => .num t
  | .str s => .str (runes s)
  | .arr l => .arr (sems l)
  | .obj l => .obj (semf l)
def sems : GoVals → List Json
  | .nil => []
  | .cons v l => sem v :: sems l
def semf : GoFields → List (List Nat × Json)
  | .nil => []
  | .cons k v l => (runes k, sem v) :: semf l
end

mutual
/-- the texts of floating-point numbers are numbers -/
def Fine : GoVal → Prop
  | .float t => Json.IsNumber t ∧ ∀ c ∈ t, c < 0x80
  | .arr l => Fines l
  | .obj l => Finef l
  | _ => True
def Fines : GoVals → Prop
  | .nil => True
  | .cons v l => Fine v ∧ Fines l
def Finef : GoFields → Prop
  | .nil => True
  | .cons _ v l => Fine v ∧ Finef l
end

theorem skip_blanks {ws : List Nat} (h : ∀ c ∈ ws, Json.blank c = true) (cs : List Nat) : Json.skip (ws ++ cs) = Json.skip cs := by
  induction ws with
  | nil => rfl
  | cons c ws ih =>
    rw [List.cons_append, Json.skip, if_pos (h c List.mem_cons_self)]
    exact ih fun c hc => h c (List.mem_cons_of_mem _ hc)

theorem newLine_blank (depth : Nat) : ∀ c ∈ newLine depth, Json.blank c = true := by
  intro c hc
  rcases List.mem_cons.1 hc with rfl | hc
  · rfl
  · rw [(List.mem_replicate.1 hc).2]; rfl

theorem skip_line (depth : Nat) (cs : List Nat) : Json.skip (newLine depth ++ cs) = Json.skip cs := skip_blanks (newLine_blank depth) cs

theorem skip_solid {c : Nat} (h : Json.blank c = false) (cs : List Nat) : Json.skip (c :: cs) = c :: cs := by rw [Json.skip, h]; rfl

theorem value_blanks {ws : List Nat} (h : ∀ c ∈ ws, Json.blank c = true) (fuel : Nat) (cs : List Nat) : Json.value fuel (ws ++ cs) = Json.value fuel cs := by
  cases fuel with
  | zero => rw [Json.value, Json.value]
  | succ fuel => rw [Json.value, Json.value, skip_blanks h]

/-- the first character of a value -/
theorem text_first (short : Bool) (depth : Nat) (v : GoVal) (h : Fine v) : ∃ c cs, v.text (points short) depth = c :: cs ∧ Json.blank c = false ∧ c ≠ 93 := by
  cases v with
  | bool b => cases b <;> exact ⟨_, _, by rw [GoVal.text]; rfl, by decide, by decide⟩
  | uint n =>
    obtain ⟨c, cs, e, hc⟩ := number_first (num_number n).1
    refine ⟨c, cs, by rw [GoVal.text]; exact e, ?_, by omega⟩
    unfold Json.blank; simp; omega
  | float t =>
    rw [Fine] at h
    obtain ⟨c, cs, e, hc⟩ := number_first h.1
    refine ⟨c, cs, by rw [GoVal.text]; exact e, ?_, by omega⟩
    unfold Json.blank; simp; omega
  | str s => exact ⟨_, _, by rw [GoVal.text]; rfl, by decide, by decide⟩
  | arr l =>
    cases l with
    | nil => exact ⟨_, _, by rw [GoVal.text]; rfl, by decide, by decide⟩
    | cons v l => exact ⟨_, _, by rw [GoVal.text], by decide, by decide⟩
  | obj l =>
    cases l with
    | nil => exact ⟨_, _, by rw [GoVal.text]; rfl, by decide, by decide⟩
    | cons k v l => exact ⟨_, _, by rw [GoVal.text], by decide, by decide⟩

theorem value_scalar {fuel c : Nat} {cs : List Nat} (hb : Json.blank c = false) (h1 : c ≠ 123) (h2 : c ≠ 91) : Json.value (fuel + 1) (c :: cs) = Json.scalar (c :: cs) := by
  rw [Json.value, skip_solid hb]
  simp only [if_neg h1, if_neg h2]

theorem value_obj {fuel : Nat} {cs cs' : List Nat} (h : Json.skip cs = 34 :: cs') :
    Json.value (fuel + 1) (123 :: cs) = (Json.members fuel (34 :: cs')).map fun x => (.obj x.1, x.2) := by
  rw [Json.value, skip_solid (by decide)]
  simp only [h, if_true]

theorem value_arr {fuel c : Nat} {cs cs' : List Nat} (h : Json.skip cs = c :: cs') (hc : c ≠ 93) :
    Json.value (fuel + 1) (91 :: cs) = (Json.elements fuel (c :: cs')).map fun x => (.arr x.1, x.2) := by
  rw [Json.value, skip_solid (by decide)]
  simp only [h, if_true, if_neg (show ¬ (91 = 123) by decide)]
  split
  · next e => injection e with e; omega
  · rfl

theorem string_quoted (short : Bool) (s : Text) (tail : List Nat) : Json.string (points short s ++ 34 :: tail) = some (runes s, tail) := string_points short _ s tail

theorem value_number {t rest : List Nat} (ht : Json.IsNumber t) {fuel : Nat} (hf : t.length ≤ fuel) (h : Stop rest) : Json.value fuel (t ++ rest) = some (.num t, rest) := by
  have hs := scalar_number ht h
  obtain ⟨c, cs, rfl, hc⟩ := number_first ht
  obtain ⟨fuel, rfl⟩ : ∃ f, fuel = f + 1 := ⟨fuel - 1, by simp only [List.length_cons] at hf; omega⟩
  rw [List.cons_append] at hs ⊢
  rw [value_scalar (by unfold Json.blank; simp; omega) (by omega) (by omega)]
  exact hs

theorem elements_blanks {ws : List Nat} (h : ∀ c ∈ ws, Json.blank c = true) (fuel : Nat) (cs : List Nat) : Json.elements fuel (ws ++ cs) = Json.elements fuel cs := by
  cases fuel with
  | zero => rw [Json.elements, Json.elements]
  | succ fuel => rw [Json.elements, Json.elements, value_blanks h]

theorem members_blanks {ws : List Nat} (h : ∀ c ∈ ws, Json.blank c = true) (fuel : Nat) (cs : List Nat) : Json.members fuel (ws ++ cs) = Json.members fuel cs := by
  cases fuel with
  | zero => rw [Json.members, Json.members]
  | succ fuel => rw [Json.members, Json.members, skip_blanks h]

theorem members_step (short : Bool) (k : Text) (v : GoVal) (depth fuel : Nat) (tail : List Nat)
    (hv : Json.value fuel (v.text (points short) depth ++ tail) = some (sem v, tail)) :
    Json.members (fuel + 1) (quoted (points short k) ++ (lit ": " ++ (v.text (points short) depth ++ tail))) =
      match Json.skip tail with
      | 44 :: cs => (Json.members fuel cs).map fun x => ((runes k, sem v) :: x.1, x.2)
      | 125 :: cs => some ([(runes k, sem v)], cs)
      | _ => none := by
  have e1 : quoted (points short k) ++ (lit ": " ++ (v.text (points short) depth ++ tail)) =
      34 :: (points short k ++ 34 :: 58 :: ([32] ++ (v.text (points short) depth ++ tail))) := by
    unfold quoted
    simp only [List.append_assoc, List.cons_append, List.nil_append]
    rfl
  rw [e1, Json.members, skip_solid (by decide)]
  simp only [string_quoted, Option.bind_some, skip_solid (show Json.blank 58 = false by decide)]
  rw [value_blanks (by decide), hv]
  rfl

mutual
theorem value_text (short : Bool) : ∀ (v : GoVal), Fine v → ∀ (depth fuel : Nat) (rest : List Nat), (v.text (points short) depth).length ≤ fuel → Stop rest →
    Json.value fuel (v.text (points short) depth ++ rest) = some (sem v, rest)
  | .bool b, _, depth, fuel, rest, hf, _ => by
    rw [GoVal.text] at hf ⊢
    cases b with
    | false =>
      have hl : (5 : Nat) ≤ fuel := hf
      obtain ⟨fuel, rfl⟩ : ∃ f, fuel = f + 1 := ⟨fuel - 1, by omega⟩
      exact value_scalar (by decide) (by decide) (by decide)
    | true =>
      have hl : (4 : Nat) ≤ fuel := hf
      obtain ⟨fuel, rfl⟩ : ∃ f, fuel = f + 1 := ⟨fuel - 1, by omega⟩
      exact value_scalar (by decide) (by decide) (by decide)
  | .uint n, _, depth, fuel, rest, hf, hr => by
    rw [GoVal.text] at hf ⊢
    exact value_number (num_number n).1 hf hr
  | .float t, h, depth, fuel, rest, hf, hr => by
    rw [GoVal.text] at hf ⊢
    rw [Fine] at h
    exact value_number h.1 hf hr
  | .str s, _, depth, fuel, rest, hf, _ => by
    rw [GoVal.text] at hf ⊢
    unfold quoted at hf ⊢
    obtain ⟨fuel, rfl⟩ : ∃ f, fuel = f + 1 := ⟨fuel - 1, by simp only [List.length_cons] at hf; omega⟩
    rw [List.cons_append, value_scalar (by decide) (by decide) (by decide)]
    unfold Json.scalar
    simp only [List.append_assoc, List.singleton_append, string_quoted, Option.map_some]
    rw [sem]
  | .arr .nil, _, depth, fuel, rest, hf, _ => by
    rw [GoVal.text] at hf ⊢
    have hl : (2 : Nat) ≤ fuel := hf
    obtain ⟨fuel, rfl⟩ : ∃ f, fuel = f + 1 := ⟨fuel - 1, by omega⟩
    show Json.value (fuel + 1) (91 :: 93 :: rest) = _
    rw [Json.value, skip_solid (by decide), sem, sems]
    simp only [if_true, if_neg (show ¬ (91 = 123) by decide), skip_solid (show Json.blank 93 = false by decide)]
  | .arr (.cons v l), h, depth, fuel, rest, hf, _ => by
    rw [GoVal.text] at hf ⊢
    rw [Fine, Fines] at h
    simp only [List.length_cons, List.length_append] at hf
    have hn : 1 ≤ (newLine (depth + 1)).length := by simp [newLine]
    obtain ⟨fuel, rfl⟩ : ∃ f, fuel = f + 1 := ⟨fuel - 1, by omega⟩
    obtain ⟨c, cs, e, hb, hc⟩ := text_first short (depth + 1) v h.1
    have := elements_text short v l h (depth + 1) depth fuel rest (by omega)
    simp only [List.append_assoc, List.cons_append, List.nil_append] at this ⊢
    rw [e, List.cons_append] at this ⊢
    rw [value_arr (by rw [skip_line, skip_solid hb]) hc, this, sem, sems]
    rfl
  | .obj .nil, _, depth, fuel, rest, hf, _ => by
    rw [GoVal.text] at hf ⊢
    have hl : (2 : Nat) ≤ fuel := hf
    obtain ⟨fuel, rfl⟩ : ∃ f, fuel = f + 1 := ⟨fuel - 1, by omega⟩
    show Json.value (fuel + 1) (123 :: 125 :: rest) = _
    rw [Json.value, skip_solid (by decide), sem, semf]
    simp only [if_true, skip_solid (show Json.blank 125 = false by decide)]
  | .obj (.cons k v l), h, depth, fuel, rest, hf, _ => by
    rw [GoVal.text] at hf ⊢
    rw [Fine, Finef] at h
    simp only [List.length_cons, List.length_append] at hf
    have hn : 1 ≤ (newLine (depth + 1)).length := by simp [newLine]
    obtain ⟨fuel, rfl⟩ : ∃ f, fuel = f + 1 := ⟨fuel - 1, by omega⟩
    have := members_text short k v l h (depth + 1) depth fuel rest (by omega)
    unfold quoted at this ⊢
    simp only [List.append_assoc, List.cons_append, List.nil_append] at this ⊢
    rw [value_obj (by rw [skip_line, skip_solid (by decide)]), this, sem, semf]
    rfl
termination_by v => sizeOf v

theorem elements_text (short : Bool) : ∀ (v : GoVal) (l : GoVals), Fine v ∧ Fines l → ∀ (depth out fuel : Nat) (rest : List Nat),
    1 + (v.text (points short) depth).length + (l.text (points short) depth).length ≤ fuel →
    Json.elements fuel (v.text (points short) depth ++ (l.text (points short) depth ++ (newLine out ++ 93 :: rest))) = some (sem v :: sems l, rest)
  | v, .nil, h, depth, out, fuel, rest, hf => by
    obtain ⟨fuel, rfl⟩ : ∃ f, fuel = f + 1 := ⟨fuel - 1, by omega⟩
    rw [Json.elements, value_text short v h.1 depth fuel _ (by omega) (by rw [GoVals.text]; exact .inl rfl), GoVals.text, sems]
    simp only [Option.bind_some, List.nil_append, skip_line, skip_solid (show Json.blank 93 = false by decide)]
  | v, .cons v' l, h, depth, out, fuel, rest, hf => by
    obtain ⟨fuel, rfl⟩ : ∃ f, fuel = f + 1 := ⟨fuel - 1, by omega⟩
    have h2 := h.2
    rw [Fines] at h2
    rw [GoVals.text] at hf
    simp only [List.length_cons, List.length_append] at hf
    rw [Json.elements, value_text short v h.1 depth fuel _ (by omega) (by rw [GoVals.text]; exact .inr rfl), GoVals.text, sems]
    simp only [Option.bind_some, List.cons_append, List.append_assoc, skip_solid (show Json.blank 44 = false by decide)]
    rw [elements_blanks (newLine_blank depth), elements_text short v' l h2 depth out fuel rest (by omega)]
    rfl
termination_by v l => sizeOf v + sizeOf l

theorem members_text (short : Bool) : ∀ (k : Text) (v : GoVal) (l : GoFields), Fine v ∧ Finef l → ∀ (depth out fuel : Nat) (rest : List Nat),
    1 + (v.text (points short) depth).length + (l.text (points short) depth).length ≤ fuel →
    Json.members fuel (quoted (points short k) ++ (lit ": " ++ (v.text (points short) depth ++ (l.text (points short) depth ++ (newLine out ++ 125 :: rest))))) =
      some ((runes k, sem v) :: semf l, rest)
  | k, v, .nil, h, depth, out, fuel, rest, hf => by
    obtain ⟨fuel, rfl⟩ : ∃ f, fuel = f + 1 := ⟨fuel - 1, by omega⟩
    rw [members_step short k v depth fuel _ (value_text short v h.1 depth fuel _ (by omega) (by rw [GoFields.text]; exact .inl rfl)), GoFields.text, semf]
    simp only [List.nil_append, skip_line, skip_solid (show Json.blank 125 = false by decide)]
  | k, v, .cons k' v' l, h, depth, out, fuel, rest, hf => by
    obtain ⟨fuel, rfl⟩ : ∃ f, fuel = f + 1 := ⟨fuel - 1, by omega⟩
    have h2 := h.2
    rw [Finef] at h2
    rw [GoFields.text] at hf
    simp only [List.length_cons, List.length_append] at hf
    rw [members_step short k v depth fuel _ (value_text short v h.1 depth fuel _ (by omega) (by rw [GoFields.text]; exact .inr rfl)), GoFields.text, semf]
    simp only [List.cons_append, List.append_assoc, skip_solid (show Json.blank 44 = false by decide)]
    rw [members_blanks (newLine_blank depth), members_text short k' v' l h2 depth out fuel rest (by omega)]
    rfl
termination_by _ v l => sizeOf v + sizeOf l
end

/-! ## The bytes -/

/-- the bytes are the UTF-8 encoding of the characters -/
def Enc (bytes cs : List Nat) : Prop := bytes = cs.flatMap encodeRune ∧ ∀ c ∈ cs, scalar c

theorem Enc.append {a b x y : List Nat} (h1 : Enc a x) (h2 : Enc b y) : Enc (a ++ b) (x ++ y) :=
  ⟨by rw [h1.1, h2.1, List.flatMap_append], fun c hc => by
    rcases List.mem_append.1 hc with h | h
    · exact h1.2 c h
    · exact h2.2 c h⟩

theorem Enc.ascii {t : List Nat} (h : ∀ b ∈ t, b < 0x80) : Enc t t := ⟨(encode_ascii h).symm, fun c hc => .inl (by have := h c hc; omega)⟩

theorem Enc.cons {b : Nat} (h : b < 0x80) {a x : List Nat} (h1 : Enc a x) : Enc (b :: a) (b :: x) :=
  Enc.append (a := [b]) (x := [b]) (Enc.ascii (by simpa using h)) h1

theorem enc_chars (short : Bool) (s : Text) : Enc (jsonChars short s) (points short s) := ⟨chars_points short _ s, points_scalar short _ s⟩

theorem enc_quoted (short : Bool) (s : Text) : Enc (quoted (jsonChars short s)) (quoted (points short s)) :=
  .cons (by decide) (.append (enc_chars short s) (.ascii (by decide)))

theorem enc_line (depth : Nat) : Enc (newLine depth) (newLine depth) := .ascii fun b hb => by
  rcases List.mem_cons.1 hb with rfl | hb
  · decide
  · rw [(List.mem_replicate.1 hb).2]; decide

mutual
theorem enc_text (short : Bool) : ∀ (v : GoVal), Fine v → ∀ depth, Enc (v.text (jsonChars short) depth) (v.text (points short) depth)
  | .bool b, _, depth => by rw [GoVal.text, GoVal.text]; cases b <;> exact .ascii (by decide)
  | .uint n, _, depth => by
    rw [GoVal.text, GoVal.text]
    exact .ascii fun b hb => by have := num10 n b hb; omega
  | .float t, h, depth => by
    rw [Fine] at h
    rw [GoVal.text, GoVal.text]
    exact .ascii h.2
  | .str s, _, depth => by rw [GoVal.text, GoVal.text]; exact enc_quoted short s
  | .arr .nil, _, depth => by rw [GoVal.text, GoVal.text]; exact .ascii (by decide)
  | .arr (.cons v l), h, depth => by
    rw [Fine, Fines] at h
    rw [GoVal.text, GoVal.text]
    exact .cons (by decide) ((((enc_line _).append (enc_text short v h.1 _)).append (enc_texts short l h.2 _)).append (enc_line _) |>.append (.ascii (by decide)))
  | .obj .nil, _, depth => by rw [GoVal.text, GoVal.text]; exact .ascii (by decide)
  | .obj (.cons k v l), h, depth => by
    rw [Fine, Finef] at h
    rw [GoVal.text, GoVal.text]
    exact .cons (by decide) ((((((enc_line _).append (enc_quoted short k)).append (.ascii (by decide))).append (enc_text short v h.1 _)).append
      (enc_textf short l h.2 _)).append (enc_line _) |>.append (.ascii (by decide)))
theorem enc_texts (short : Bool) : ∀ (l : GoVals), Fines l → ∀ depth, Enc (l.text (jsonChars short) depth) (l.text (points short) depth)
  | .nil, _, depth => by rw [GoVals.text, GoVals.text]; exact .ascii (by decide)
  | .cons v l, h, depth => by
    rw [Fines] at h
    rw [GoVals.text, GoVals.text]
    exact .cons (by decide) (((enc_line _).append (enc_text short v h.1 _)).append (enc_texts short l h.2 _))
theorem enc_textf (short : Bool) : ∀ (l : GoFields), Finef l → ∀ depth, Enc (l.text (jsonChars short) depth) (l.text (points short) depth)
  | .nil, _, depth => by rw [GoFields.text, GoFields.text]; exact .ascii (by decide)
  | .cons k v l, h, depth => by
    rw [Finef] at h
    rw [GoFields.text, GoFields.text]
    exact .cons (by decide) (((((enc_line _).append (enc_quoted short k)).append (.ascii (by decide))).append (enc_text short v h.1 _)).append (enc_textf short l h.2 _))
end

/-- What is written is UTF-8, and a JSON text for the value. -/
theorem parse_text (short : Bool) (v : GoVal) (h : Fine v) : Json.parse (runes (v.text (jsonChars short) 0 ++ [10])) = some (sem v) ∧
    (runes (v.text (jsonChars short) 0 ++ [10])).flatMap encodeRune = v.text (jsonChars short) 0 ++ [10] := by
  have he : Enc (v.text (jsonChars short) 0 ++ [10]) (v.text (points short) 0 ++ [10]) := (enc_text short v h 0).append (.ascii (by decide))
  have hr : runes (v.text (jsonChars short) 0 ++ [10]) = v.text (points short) 0 ++ [10] := by rw [he.1, runes_encode _ he.2]
  refine ⟨?_, by rw [hr]; exact he.1.symm⟩
  rw [hr]
  unfold Json.parse
  rw [value_text short v h 0 _ [10] (by simp) (.inl rfl)]
  rfl

end Mp4.JsonText
