import Verif.Spec.StringifyText
import Verif.Props.Stringify

/-!
# Lemmas: the text that `stringify` writes is the one of the specification
-/

namespace Mp4.Text

open Mp4.Str

/-! ## Numbers -/

theorem digitChar_toNat : ∀ d, d < 16 → (Nat.digitChar d).toNat = digitText d := by decide

theorem numLoop_eq {base : Nat} (h0 : 0 < base) (h1 : base ≤ 16) : ∀ (fuel n : Nat) (acc : List Char),
    numLoop base fuel n (acc.map Char.toNat) = (Nat.toDigitsCore base fuel n acc).map Char.toNat
  | 0, _, _ => by simp only [numLoop, Nat.toDigitsCore]
  | fuel + 1, n, acc => by
    have hd := digitChar_toNat (n % base) (Nat.lt_of_lt_of_le (Nat.mod_lt _ h0) h1)
    unfold numLoop Nat.toDigitsCore
    by_cases h : n / base = 0
    · simp only [if_pos h, List.map_cons, hd]
    · simp only [if_neg h]
      rw [← numLoop_eq h0 h1 fuel (n / base) (_ :: acc), List.map_cons, hd]

theorem num_dec (n : Nat) : num 10 n = dec n := numLoop_eq (by decide) (by decide) (n + 1) n []

theorem num_hex (n : Nat) : num 16 n = hex n := numLoop_eq (by decide) (by decide) (n + 1) n []

theorem hexPad_eq (w n : Nat) : hexPad w n = hexW w n := by unfold hexPad hexW; rw [num_hex]

theorem strInt_eq (fi : Field) (i : Int) : strInt fi i = signed fi i := by
  unfold strInt signed
  by_cases h : fi.hex = true
  · rw [if_pos h, if_pos h]
    by_cases h0 : 0 ≤ i
    · rw [if_pos h0, if_neg (by omega), if_neg (by omega), num_hex]; rfl
    · rw [if_neg h0]
      by_cases h1 : i = -(2 ^ 63)
      · subst h1; decide +kernel
      · rw [if_neg h1, if_neg h1, if_pos (by omega)]
        unfold inum
        rw [if_neg (by omega), num_hex, Int.natAbs_neg]; rfl
  · rw [if_neg h, if_neg h]
    unfold inum
    split
    · rw [num_dec]; rfl
    · rw [num_dec]; rfl

theorem strUint_eq (fi : Field) (w n : Nat) (h1 : fi.iso639 = false) (h2 : fi.uuid = false) (h3 : fi.isString = false) :
    strUint fi w n = unsigned fi w n := by
  unfold strUint unsigned
  rw [if_neg (by rw [h1]; decide), if_neg (by rw [h2]; decide), if_neg (by rw [h3]; decide), num_hex, num_dec]
  by_cases h : (fi.hex || (!fi.dec && w == 8)) = true
  · rw [if_pos h, if_pos]
    rcases Bool.or_eq_true_iff.1 h with h | h
    · exact .inl h
    · rw [Bool.and_eq_true] at h
      exact .inr ⟨by simpa using h.2, by simpa using h.1⟩
  · rw [if_neg h, if_neg]
    intro hc
    apply h
    rcases hc with hc | ⟨hc, hd⟩
    · rw [hc]; rfl
    · rw [hc, hd]; simp

/-! ## Elements one after the other -/

/-- the loop over elements: `f` appends the text of an element -/
theorem strLoop_eq (f : Val → Str.Text → Option Str.Text) (g : Val → Option Str.Text) (hfg : ∀ v b, f v b = (g v).map (b ++ ·)) (sep : Str.Text)
    (dash : Nat → Bool) : ∀ (l : List Val) (i : Nat) (buf : Str.Text),
    strLoop f sep dash i l buf = (l.mapM g).map fun ts =>
      buf ++ (ts.mapIdx fun k t => (if i + k = 0 then [] else sep) ++ t ++ (if dash (i + k) = true then [45] else [])).flatten
  | [], i, buf => by simp [strLoop]
  | v :: vs, i, buf => by
    unfold strLoop
    rw [hfg, List.mapM_cons]
    cases hg : g v with
    | none => rfl
    | some t =>
      rw [Option.map_some, Option.bind_some, strLoop_eq f g hfg sep dash vs (i + 1)]
      cases hm : List.mapM g vs with
      | none => rfl
      | some ts =>
        show some _ = some _
        congr 1
        dsimp only
        rw [List.mapIdx_cons, List.flatten_cons, Nat.add_zero]
        have : (fun k (t : Str.Text) => (if i + 1 + k = 0 then [] else sep) ++ t ++ (if dash (i + 1 + k) = true then [45] else [])) =
            fun k (t : Str.Text) => (if i + (k + 1) = 0 then [] else sep) ++ t ++ (if dash (i + (k + 1)) = true then [45] else []) := by
          funext k t
          rw [show i + 1 + k = i + (k + 1) by omega]
        rw [this]
        generalize (List.mapIdx _ ts).flatten = r
        simp only [Nat.add_zero]
        by_cases hd : dash i = true
        · rw [if_pos hd, if_pos hd]
          by_cases h0 : i = 0
          · rw [if_pos h0, if_pos h0]; simp
          · rw [if_neg h0, if_neg h0]; simp
        · rw [if_neg hd, if_neg hd]
          by_cases h0 : i = 0
          · rw [if_pos h0, if_pos h0]; simp
          · rw [if_neg h0, if_neg h0]; simp

theorem flatten_join (sep : Str.Text) : ∀ (ts : List Str.Text) (i : Nat),
    (ts.mapIdx fun k t => (if i + k = 0 then [] else sep) ++ t ++ (if false = true then [45] else [])).flatten =
      (if i = 0 ∨ ts = [] then [] else sep) ++ join sep ts
  | [], i => by simp [join]
  | [t], i => by
    by_cases h : i = 0 <;> simp [join, h]
  | t :: u :: ts, i => by
    have ih := flatten_join sep (u :: ts) (i + 1)
    rw [List.mapIdx_cons, List.flatten_cons, Nat.add_zero]
    have : (fun k (t : Str.Text) => (if i + 1 + k = 0 then [] else sep) ++ t ++ (if false = true then [45] else [])) =
        fun k (t : Str.Text) => (if i + (k + 1) = 0 then [] else sep) ++ t ++ (if false = true then [45] else []) := by
      funext k t
      rw [show i + 1 + k = i + (k + 1) by omega]
    rw [this] at ih
    rw [ih, if_neg (show ¬ (i + 1 = 0 ∨ u :: ts = []) by simp), show join sep (t :: u :: ts) = t ++ sep ++ join sep (u :: ts) from rfl]
    by_cases h : i = 0
    · subst h; simp
    · rw [if_neg (show ¬ (i = 0 ∨ t :: u :: ts = []) by simp [h])]; simp [h]

/-- elements in brackets, as in slices and arrays -/
theorem strLoop_join (f : Val → Str.Text → Option Str.Text) (g : Val → Option Str.Text) (hfg : ∀ v b, f v b = (g v).map (b ++ ·)) (sep : Str.Text)
    (l : List Val) (buf : Str.Text) :
    strLoop f sep (fun _ => false) 0 l buf = (l.mapM g).map fun ts => buf ++ join sep ts := by
  rw [strLoop_eq f g hfg]
  congr 1
  funext ts
  rw [flatten_join sep ts 0, if_pos (.inl rfl)]
  rfl

theorem mapM_numbers (g : Val → Option Str.Text) (k : Nat → Str.Text) (h1 : ∀ n, g (.uint n) = some (k n))
    (h2 : ∀ v, (∀ n, v ≠ .uint n) → g v = none) : ∀ l : List Val, l.mapM g = (numbers l).map (List.map k)
  | [] => rfl
  | v :: vs => by
    unfold numbers
    rw [List.mapM_cons, List.mapM_cons]
    have ih := mapM_numbers g k h1 h2 vs
    unfold numbers at ih
    rw [ih]
    by_cases hv : ∃ n, v = .uint n
    · obtain ⟨n, rfl⟩ := hv
      rw [h1]
      generalize (vs.mapM fun v => match v with | .uint n => some n | _ => none) = o
      cases o <;> rfl
    · rw [h2 v (fun n hn => hv ⟨n, hn⟩)]
      cases v with
      | uint n => exact absurd ⟨n, rfl⟩ hv
      | _ => rfl

theorem join_nil : ∀ ts : List Str.Text, join [] ts = ts.flatten
  | [] => rfl
  | [t] => by simp [join]
  | t :: u :: ts => by rw [show join [] (t :: u :: ts) = t ++ [] ++ join [] (u :: ts) from rfl, join_nil (u :: ts)]; simp

theorem flatten_single (k : Nat → Nat) : ∀ b : List Nat, (b.map fun n => [k n]).flatten = b.map k
  | [] => rfl
  | n :: b => by rw [List.map_cons, List.flatten_cons, flatten_single k b]; rfl

/-! ## Fields one after the other -/

/-- what the loop over fields does with the text of one field -/
def put (e : SEnv) (depth : Nat) (buf t : Str.Text) : Str.Text :=
  if e.indent = [] then (if buf ≠ [] ∧ buf.getLast? ≠ some 123 then buf ++ [32] else buf) ++ t
  else buf ++ (indentText e (depth + 1) ++ t ++ [10])

/-- a text after which a blank is put: not empty, and not ending with an opening brace -/
def Closed (t : Str.Text) : Prop := t ≠ [] ∧ t.getLast? ≠ some 123

theorem join_cons (sep t : Str.Text) (ts : List Str.Text) : join sep (t :: ts) = t ++ (if ts = [] then [] else sep ++ join sep ts) := by
  cases ts with
  | nil => simp [join]
  | cons u us => simp [join]

theorem closed_append {a b : Str.Text} (h : Closed b) : Closed (a ++ b) := by
  obtain ⟨h1, h2⟩ := h
  refine ⟨by simp [h1], ?_⟩
  rw [List.getLast?_append]
  cases hb : b.getLast? with
  | none => exact absurd (List.getLast?_eq_none_iff.1 hb) h1
  | some x => rw [hb] at h2; simpa using h2

theorem put_line {e : SEnv} (hi : e.indent = []) (depth : Nat) : ∀ (l : List Str.Text) (buf : Str.Text), (∀ t ∈ l, Closed t) → Closed buf →
    l.foldl (put e depth) buf = buf ++ (if l = [] then [] else [32] ++ join [32] l)
  | [], buf, _, _ => by simp
  | t :: l, buf, hl, hb => by
    have ht := hl t (List.mem_cons_self ..)
    have h1 : put e depth buf t = buf ++ [32] ++ t := by
      unfold put
      rw [if_pos hi, if_pos (show buf ≠ [] ∧ buf.getLast? ≠ some 123 from hb)]
    rw [List.foldl_cons, h1, put_line hi depth l _ (fun u hu => hl u (List.mem_cons_of_mem _ hu)) (closed_append ht),
      if_neg (List.cons_ne_nil _ _), join_cons]
    simp

/-- Written to an empty buffer, or behind an opening brace, fields are arranged as they should. -/
theorem put_arrange (e : SEnv) (depth : Nat) (l : List Str.Text) (buf : Str.Text) (hl : ∀ t ∈ l, Closed t) (hb : e.indent = [] → ¬ Closed buf) :
    l.foldl (put e depth) buf = buf ++ arrange e.indent (depth + 1) l := by
  unfold arrange
  by_cases hi : e.indent = []
  · rw [if_pos hi]
    cases l with
    | nil => simp [join]
    | cons t l =>
      have ht := hl t (List.mem_cons_self ..)
      have h1 : put e depth buf t = buf ++ t := by
        unfold put
        rw [if_pos hi, if_neg (show ¬ (buf ≠ [] ∧ buf.getLast? ≠ some 123) from hb hi)]
      rw [List.foldl_cons, h1, put_line hi depth l _ (fun u hu => hl u (List.mem_cons_of_mem _ hu)) (closed_append ht), join_cons]
      simp [lit]
  · rw [if_neg hi]
    clear hl hb
    induction l generalizing buf with
    | nil => simp
    | cons t l ih =>
      rw [List.foldl_cons, ih]
      unfold put
      rw [if_neg hi]
      simp only [List.map_cons, List.flatten_cons, List.append_assoc, indentText]
      rfl

/-! ## Texts that are followed by a blank -/

/-- a text that does not end with an opening brace; it may be empty -/
def Ends (t : Str.Text) : Prop := t.getLast? ≠ some 123

theorem ends_last {a : Str.Text} {x : Nat} (h : x ≠ 123) : Ends (a ++ [x]) := by
  unfold Ends
  rw [List.getLast?_append]
  simpa using h

theorem ends_all {t : Str.Text} (h : ∀ x ∈ t, x ≠ 123) : Ends t := by
  unfold Ends
  intro hc
  exact h 123 (List.mem_of_getLast? hc) rfl

theorem numLoop_mem {base : Nat} (h0 : 0 < base) (h1 : base ≤ 16) : ∀ (fuel n : Nat) (acc : Str.Text), (∀ x ∈ acc, x < 123) →
    ∀ x ∈ numLoop base fuel n acc, x < 123
  | 0, _, acc, ha => by simpa only [numLoop] using ha
  | fuel + 1, n, acc, ha => by
    have hm := Nat.mod_lt n h0
    have hd : digitText (n % base) < 123 := by unfold digitText; split <;> omega
    have ha' : ∀ x ∈ digitText (n % base) :: acc, x < 123 := by
      intro x hx
      rcases List.mem_cons.1 hx with rfl | hx
      · exact hd
      · exact ha x hx
    unfold numLoop
    split
    · exact ha'
    · exact numLoop_mem h0 h1 fuel _ _ ha'

theorem dec_mem (n : Nat) : ∀ x ∈ dec n, x < 123 := by
  rw [← num_dec]
  exact numLoop_mem (by decide) (by decide) _ _ _ (by simp)

theorem hex_mem (n : Nat) : ∀ x ∈ hex n, x < 123 := by
  rw [← num_hex]
  exact numLoop_mem (by decide) (by decide) _ _ _ (by simp)

theorem hexW_mem (w n : Nat) : ∀ x ∈ hexW w n, x < 123 := by
  intro x hx
  unfold hexW at hx
  rcases List.mem_append.1 hx with h | h
  · rw [List.eq_of_mem_replicate h]; decide
  · exact hex_mem n x h

/-- all characters are below the opening brace -/
abbrev Low (t : Str.Text) : Prop := ∀ x ∈ t, x < 123

theorem Low.append {a b : Str.Text} (ha : Low a) (hb : Low b) : Low (a ++ b) := by
  intro x hx
  rcases List.mem_append.1 hx with h | h
  · exact ha x h
  · exact hb x h

theorem Low.ends {t : Str.Text} (h : Low t) : Ends t := ends_all fun x hx => Nat.ne_of_lt (h x hx)

theorem signed_low (fi : Field) (i : Int) : Low (signed fi i) := by
  unfold signed
  have h1 : Low (if i < 0 then lit "-" else []) := by split <;> decide
  split
  · split
    · decide
    · exact (h1.append (by decide)).append (hex_mem _)
  · exact h1.append (dec_mem _)

theorem unsigned_low (fi : Field) (w n : Nat) : Low (unsigned fi w n) := by
  unfold unsigned
  split
  · exact Low.append (by decide) (hex_mem _)
  · exact dec_mem _

theorem low_flatten {l : List Str.Text} (h : ∀ t ∈ l, Low t) : Low l.flatten := by
  intro x hx
  obtain ⟨t, ht, hx⟩ := List.mem_flatten.1 hx
  exact h t ht x hx

theorem dashed_low (l : List Nat) : Low (dashed l) := by
  apply low_flatten
  intro t ht
  obtain ⟨i, hi, rfl⟩ := List.mem_mapIdx.1 ht
  exact Low.append (hexW_mem _ _) (by split <;> decide)

theorem quoted_ends (t : Str.Text) : Ends (quoted t) := by
  show Ends ((34 :: t) ++ [34])
  exact ends_last (by decide)

theorem inum_low (i : Int) : Low (inum 10 i) := by
  unfold inum
  rw [num_dec]
  split
  · intro x hx
    rcases List.mem_cons.1 hx with rfl | hx
    · decide
    · exact dec_mem _ x hx
  · exact dec_mem _

theorem fixed_low (bits prec : Nat) (i : Int) : Low (fixed bits prec i) := by
  unfold fixed
  split
  · exact inum_low _
  · unfold fixedText
    simp only [num_dec]
    refine Low.append (Low.append (by split <;> decide) (dec_mem _)) ?_
    intro x hx
    rcases List.mem_cons.1 hx with rfl | hx
    · decide
    · rcases List.mem_append.1 hx with h | h
      · rw [List.eq_of_mem_replicate h]; decide
      · exact dec_mem _ x h

theorem strData_ends {beyond : Nat → Bool} {name : String} {sv : SV} {t : Str.Text} (h : strData beyond name sv = some t) : Ends t := by
  unfold strData at h
  split at h
  · split at h <;> first | (cases h; exact Low.ends (by decide)) | cases h
  · split at h
    · cases h; exact quoted_ends _
    · cases h

theorem strDescriptor_ends {name : String} {sv : SV} {t : Str.Text} (h : strDescriptor name sv = some t) : Ends t := by
  unfold strDescriptor at h
  split at h
  · split at h <;> first | (cases h; exact Low.ends (by decide)) | cases h
  · cases h

theorem strRoot_ends {beyond : Nat → Bool} {g name : String} {sv : SV} {t : Str.Text} (h : strRoot beyond g name sv = some t) : Ends t := by
  unfold strRoot at h
  split at h
  · cases h; exact (fixed_low _ _ _).ends
  split at h
  · simp only at h
    split at h
    · cases h; exact quoted_ends _
    · cases h
  split at h
  · cases h; exact (fixed_low _ _ _).ends
  split at h
  · cases h; exact (fixed_low _ _ _).ends
  split at h
  · cases h; exact (fixed_low _ _ _).ends
  split at h
  · split at h
    · cases h
      exact ends_last (a := 91 :: _) (by decide)
    · cases h; exact Low.ends (by decide)
  split at h
  · exact strData_ends h
  split at h
  · cases h; exact quoted_ends _
  split at h
  · cases h; exact quoted_ends _
  · cases h

theorem strNested_ends {beyond : Nat → Bool} {g field name : String} {sv : SV} {t : Str.Text} (h : strNested beyond g field name sv = some t) :
    Ends t := by
  unfold strNested at h
  split at h
  · cases h; exact quoted_ends _
  split at h
  · cases h; exact quoted_ends _
  split at h
  · exact strDescriptor_ends h
  split at h
  · exact strData_ends h
  · cases h

/-- The text of a value does not end with an opening brace. -/
theorem shown_ends (e : SEnv) (field : String) : ∀ (t : Ty) (fi : Field) (depth : Nat) (v : Val) (x : Str.Text),
    shown e field t fi depth v = some x → Ends x
  | .uint w, fi, _, v, x, h => by
    cases v <;> simp only [shown, reduceCtorEq, Option.some.injEq] at h
    rw [← h]; exact (unsigned_low _ _ _).ends
  | .int _, fi, _, v, x, h => by
    cases v <;> simp only [shown, reduceCtorEq, Option.some.injEq] at h
    rw [← h]; exact (signed_low _ _).ends
  | .bool, _, _, v, x, h => by
    cases v <;> simp only [shown, reduceCtorEq, Option.some.injEq] at h
    rw [← h]
    split <;> exact Low.ends (by decide)
  | .str, _, _, v, x, h => by
    cases v <;> simp only [shown, reduceCtorEq, Option.some.injEq] at h
    rw [← h]; exact quoted_ends _
  | .ptr t, fi, depth, v, x, h => by
    match v with
    | .ptr (some y) => simp only [shown] at h; exact shown_ends e field t fi depth y x h
    | .ptr none | .uint _ | .int _ | .bool _ | .str _ | .arr _ | .slice _ | .struct _ => simp only [shown, reduceCtorEq] at h
  | .struct c fs, fi, depth, v, x, h => by
    cases v <;> simp only [shown, reduceCtorEq, Option.map_eq_some_iff] at h
    obtain ⟨a, -, rfl⟩ := h
    exact ends_last (by decide)
  | .arr _ t, fi, depth, v, x, h => by
    cases v <;> simp only [shown, reduceCtorEq] at h
    split at h
    · obtain ⟨a, -, rfl⟩ := Option.map_eq_some_iff.1 h; exact quoted_ends _
    split at h
    · obtain ⟨a, -, rfl⟩ := Option.map_eq_some_iff.1 h; exact quoted_ends _
    split at h
    · obtain ⟨a, -, rfl⟩ := Option.map_eq_some_iff.1 h; exact (dashed_low _).ends
    · obtain ⟨a, -, rfl⟩ := Option.map_eq_some_iff.1 h; exact ends_last (by decide)
  | .slice t, fi, depth, v, x, h => by
    cases v <;> simp only [shown, reduceCtorEq] at h
    split at h
    · obtain ⟨a, -, rfl⟩ := Option.map_eq_some_iff.1 h; exact quoted_ends _
    split at h
    · obtain ⟨a, -, rfl⟩ := Option.map_eq_some_iff.1 h; exact quoted_ends _
    · obtain ⟨a, -, rfl⟩ := Option.map_eq_some_iff.1 h; exact ends_last (by decide)

theorem named_closed {n : String} {v : Str.Text} (h : Ends v) : Closed (lit n ++ lit "=" ++ v) := by
  refine ⟨by simp [lit], ?_⟩
  rw [List.getLast?_append]
  cases hv : v.getLast? with
  | none => simp [lit]
  | some x =>
    unfold Ends at h
    rw [hv] at h
    simpa using h

/-! ## The whole -/

theorem resolve_tags {c : Cfo} {ctx : Ctx} {csv : SV} {f fi : Field} (h : resolve c ctx csv f = some fi) :
    fi.isString = f.isString ∧ fi.iso639 = f.iso639 ∧ fi.uuid = f.uuid ∧ fi.extend = f.extend := by
  unfold resolve at h
  by_cases h1 : f.sizeDyn = true <;> by_cases h2 : f.lenDyn = true <;>
    simp only [h1, h2, if_true, Bool.false_eq_true, if_false, Option.bind_eq_bind] at h
  all_goals
    obtain ⟨a, -, h⟩ := Option.bind_eq_some_iff.1 h
    obtain ⟨b, -, h⟩ := Option.bind_eq_some_iff.1 h
    cases h
    exact ⟨rfl, rfl, rfl, rfl⟩

theorem tidy_congr {f fi : Field} (h : fi.isString = f.isString ∧ fi.iso639 = f.iso639 ∧ fi.uuid = f.uuid ∧ fi.extend = f.extend) : ∀ t : Ty,
    tidy t fi = tidy t f
  | .uint _ => by simp only [tidy, h]
  | .int _ => by simp only [tidy]
  | .bool => by simp only [tidy]
  | .str => by simp only [tidy]
  | .ptr t => by simp only [tidy]; exact tidy_congr h t
  | .arr _ t => by
    unfold tidy
    rw [show oneTag fi = oneTag f by unfold oneTag; rw [h.1, h.2.1, h.2.2.1], h.1, h.2.1, h.2.2.1, tidy_congr h t]
  | .slice t => by
    unfold tidy
    rw [show oneTag fi = oneTag f by unfold oneTag; rw [h.1, h.2.1, h.2.2.1], h.1, h.2.1, h.2.2.1, tidy_congr h t]
  | .struct _ _ => by simp only [tidy, h]

theorem strRoot_plain {beyond : Nat → Bool} {g name : String} {sv : SV} (h : name ∉ ownNames) : strRoot beyond g name sv = none := by
  simp only [ownNames, List.mem_cons, not_or] at h
  obtain ⟨-, -, h1, h2, h3, h4, h5, h6, h7, h8, h9, h10, -⟩ := h
  unfold strRoot strData
  simp only [h1, h2, h3, h4, h5, h6, h7, h8, h9, h10, and_false, or_false, false_and, if_false, ite_self]

theorem strNested_plain {beyond : Nat → Bool} {g field name : String} {sv : SV} (h : name ∉ ownNames) :
    strNested beyond g field name sv = none := by
  simp only [ownNames, List.mem_cons, not_or] at h
  obtain ⟨-, -, -, -, -, -, -, -, -, h8, h9, -, h11, h12, h13, -⟩ := h
  unfold strNested strData strDescriptor
  simp only [h8, h9, h11, h12, h13, and_false, false_and, if_false, ite_self]

/-- The texts of fields are followed by a blank. -/
theorem fields_closed (e : SEnv) : ∀ (fs : Fields) (field : String) (c : Option Cfo) (depth : Nat) (sv rest : SV) (l : List Str.Text),
    fields e field c fs depth sv rest = some l → ∀ t ∈ l, Closed t
  | .nil, field, c, depth, sv, rest, l, h => by
    simp only [fields, Option.some.injEq] at h
    subst h
    simp
  | .cons f t fs, field, c, depth, sv, rest, l, h => by
    unfold fields at h
    simp only at h
    generalize (if c.isSome = true then sv else e.root) = csv at h
    generalize ho : (if c.isSome = true then strNested e.beyond e.bd.goName field f.name csv else strRoot e.beyond e.bd.goName f.name csv) = own at h
    have ho' : ∀ x, own = some x → Ends x := by
      intro x hx
      rw [hx] at ho
      split at ho
      · exact strNested_ends ho
      · exact strRoot_ends ho
    split at h
    · rename_i fi _ v rest hr
      split at h
      · obtain ⟨first, h1, h⟩ := Option.bind_eq_some_iff.1 h
        obtain ⟨others, h2, rfl⟩ := Option.map_eq_some_iff.1 h
        have ih := fields_closed e fs _ _ _ _ _ _ h2
        intro x hx
        rcases List.mem_append.1 hx with hx | hx
        · split at h1
          · match t, v, h1 with
            | .struct c' fs', .struct sv', h1 => exact fields_closed e fs' _ _ _ _ _ _ h1 x hx
            | .ptr (.struct c' fs'), .ptr (some (.struct sv')), h1 => exact fields_closed e fs' _ _ _ _ _ _ h1 x hx
          · obtain ⟨val, hv, rfl⟩ := Option.map_eq_some_iff.1 h1
            rw [List.mem_singleton.1 hx]
            apply named_closed
            split at hv
            · cases hv
              exact ho' _ rfl
            · split at hv
              · cases hv; exact Low.ends (dec_mem _)
              split at hv
              · cases hv; exact Low.ends (Low.append (by decide) (hexW_mem _ _))
              · exact shown_ends _ _ _ _ _ _ _ hv
        · exact ih x hx
      · exact fields_closed e fs _ _ _ _ _ _ h
    · cases h

theorem not_closed_brace (a : Str.Text) : ¬ Closed (a ++ [123]) := by
  intro h
  apply h.2
  rw [List.getLast?_append]
  rfl

/-- the text of an element that is a number -/
def numText (fi : Field) (w : Nat) (v : Val) : Option Str.Text := match v with | .uint n => some (strUint fi w n) | _ => none

theorem numbers_loop (e : SEnv) (field : String) (fi : Field) (w depth : Nat) (_l : List Val) (v : Val) (b : Str.Text) :
    strV e field (.uint w) fi depth v b = (numText fi w v).map (b ++ ·) := by
  cases v <;> simp only [strV, numText, Option.map_none, Option.map_some]

theorem numbers_map (fi : Field) (w : Nat) (l : List Val) : l.mapM (numText fi w) = (numbers l).map (List.map (strUint fi w)) :=
  mapM_numbers _ (strUint fi w) (fun _ => rfl) (by
    intro v hv
    cases v with
    | uint n => exact absurd rfl (hv n)
    | _ => rfl) l

theorem nodash {fi : Field} (h : fi.uuid = false) : (fun i => fi.uuid && (i == 3 || i == 5 || i == 7 || i == 9)) = fun _ => false := by
  funext i; rw [h]; rfl

theorem strUint_string {fi : Field} {w : Nat} (h1 : fi.iso639 = false) (h2 : fi.uuid = false) (h3 : fi.isString = true) :
    strUint fi w = fun n => [n % 256] := by
  funext n
  unfold strUint
  rw [if_neg (by rw [h1]; decide), if_neg (by rw [h2]; decide), if_pos h3]

theorem strUint_lang {fi : Field} {w : Nat} (h1 : fi.iso639 = true) : strUint fi w = fun n => [(n + 0x60) % 256] := by
  funext n
  unfold strUint
  rw [if_pos h1]

theorem strUint_uuid {fi : Field} {w : Nat} (h1 : fi.iso639 = false) (h2 : fi.uuid = true) : strUint fi w = hexW 2 := by
  funext n
  unfold strUint
  rw [if_neg (by rw [h1]; decide), if_pos h2, hexPad_eq]

mutual
theorem strV_shown (e : SEnv) : ∀ (t : Ty) (field : String) (fi : Field) (depth : Nat) (v : Val) (buf : Str.Text), tidy t fi = true →
    strV e field t fi depth v buf = (shown e field t fi depth v).map (buf ++ ·)
  | .uint w, field, fi, depth, v, buf, ht => by
    simp only [tidy, Bool.and_eq_true, Bool.not_eq_true'] at ht
    cases v <;> simp only [strV, shown, Option.map_none, Option.map_some]
    rw [strUint_eq _ _ _ ht.1.2 ht.2 ht.1.1]
  | .int _, field, fi, depth, v, buf, ht => by
    cases v <;> simp only [strV, shown, Option.map_none, Option.map_some]
    rw [strInt_eq]
  | .bool, field, fi, depth, v, buf, ht => by
    cases v <;> simp only [strV, shown, Option.map_none, Option.map_some]
  | .str, field, fi, depth, v, buf, ht => by
    cases v <;> simp only [strV, shown, Option.map_none, Option.map_some]
  | .ptr t, field, fi, depth, v, buf, ht => by
    simp only [tidy] at ht
    match v with
    | .ptr (some y) => simp only [strV, shown]; exact strV_shown e t field fi depth y buf ht
    | .ptr none | .uint _ | .int _ | .bool _ | .str _ | .arr _ | .slice _ | .struct _ => simp only [strV, shown, Option.map_none]
  | .struct c fs, field, fi, depth, v, buf, ht => by
    simp only [tidy, Bool.and_eq_true, Bool.not_eq_true'] at ht
    cases v <;> simp only [strV, shown, Option.map_none]
    rename_i sv
    rw [if_neg (by rw [ht.1]; decide), strFields_shown e fs field c (depth + 1) sv sv _ ht.2, Option.map_map, Option.map_map]
    cases hf : fields e field c fs (depth + 1) sv sv with
    | none => rfl
    | some l =>
      show some _ = some _
      congr 1
      simp only [Function.comp]
      rw [put_arrange e (depth + 1) l _ (fields_closed e fs _ _ _ _ _ _ hf) (by
        intro hi
        rw [if_pos hi]
        exact not_closed_brace buf)]
      unfold indentText
      simp [lit]
  | .arr n t, field, fi, depth, v, buf, ht => by
    unfold tidy at ht
    cases v <;> simp only [strV, shown, Option.map_none]
    rename_i l
    obtain ⟨ho, ht⟩ := Bool.and_eq_true_iff.1 ht
    by_cases hu : (fi.isString || fi.iso639 || fi.uuid) = true
    · rw [if_pos hu] at ht
      cases t <;> simp only [Bool.false_eq_true] at ht
      rename_i w _
      have key := numbers_loop e field fi w (depth + 1) l
      simp only [oneTag, Bool.and_eq_true, Bool.not_eq_true', Bool.and_eq_false_iff] at ho
      obtain ⟨⟨h1, h2⟩, h3⟩ := ho
      by_cases hs : fi.isString = true
      · have hi : fi.iso639 = false := h1.resolve_left (by rw [hs]; decide)
        have hq : fi.uuid = false := h2.resolve_left (by rw [hs]; decide)
        rw [if_pos hs, if_pos hs, nodash hq, strLoop_join _ _ (key · ·), numbers_map, Option.map_map, Option.map_map, Option.map_map]
        congr 1
        funext b
        simp only [Function.comp, strUint_string hi hq hs, join_nil, flatten_single, List.nil_append]
      rw [if_neg hs, if_neg hs]
      by_cases hi : fi.iso639 = true
      · have hq : fi.uuid = false := h3.resolve_left (by rw [hi]; decide)
        rw [if_pos hi, if_pos hi, nodash hq, strLoop_join _ _ (key · ·), numbers_map, Option.map_map, Option.map_map, Option.map_map]
        congr 1
        funext b
        simp [Function.comp, strUint_lang hi, join_nil, flatten_single, quoted]
      rw [if_neg hi, if_neg hi]
      have hq : fi.uuid = true := by simpa [hs, hi] using hu
      rw [if_pos hq, if_pos hq, strLoop_eq _ _ (key · ·), numbers_map, Option.map_map, Option.map_map]
      congr 1
      funext b
      simp only [Function.comp, dashed, strUint_uuid (Bool.eq_false_iff.2 hi) hq]
      congr 2
      apply List.ext_getElem (by simp)
      intro k h4 h5
      simp only [List.getElem_mapIdx, List.getElem_map, hq, Bool.true_and, Nat.zero_add, Bool.or_eq_true, beq_iff_eq, ite_self, List.nil_append, or_assoc]
      rfl
    · rw [if_neg hu] at ht
      simp only [Bool.or_eq_true, not_or, Bool.not_eq_true] at hu
      rw [if_neg (by rw [hu.1.1]; decide), if_neg (by rw [hu.1.2]; decide), if_neg (by rw [hu.2]; decide),
        if_neg (by rw [hu.1.1]; decide), if_neg (by rw [hu.1.2]; decide), if_neg (by rw [hu.2]; decide)]
      rw [nodash hu.2, strLoop_join _ (fun v => shown e field t fi (depth + 1) v) (fun v b => strV_shown e t field fi (depth + 1) v b ht),
        Option.map_map, Option.map_map]
      congr 1
      funext ts
      simp [lit]
  | .slice t, field, fi, depth, v, buf, ht => by
    unfold tidy at ht
    cases v <;> simp only [strV, shown, Option.map_none]
    rename_i l
    generalize (if fi.length = lengthUnlimited then l else l.take fi.length) = l
    obtain ⟨ho, ht⟩ := Bool.and_eq_true_iff.1 ht
    obtain ⟨ho, hq⟩ := Bool.and_eq_true_iff.1 ho
    simp only [Bool.not_eq_true'] at hq
    by_cases hu : (fi.isString || fi.iso639) = true
    · rw [if_pos hu] at ht
      cases t <;> simp only [Bool.false_eq_true] at ht
      rename_i w _
      have key := numbers_loop e field fi w (depth + 1) l
      simp only [oneTag, Bool.and_eq_true, Bool.not_eq_true', Bool.and_eq_false_iff] at ho
      obtain ⟨⟨h1, h2⟩, h3⟩ := ho
      by_cases hs : fi.isString = true
      · have hi : fi.iso639 = false := h1.resolve_left (by rw [hs]; decide)
        rw [if_pos hs, if_pos hs, strLoop_join _ _ (key · ·), numbers_map, Option.map_map, Option.map_map, Option.map_map]
        congr 1
        funext b
        simp only [Function.comp, strUint_string hi hq hs, join_nil, flatten_single, List.nil_append]
      rw [if_neg hs, if_neg hs]
      have hi : fi.iso639 = true := by simpa [hs] using hu
      rw [if_pos hi, if_pos hi, strLoop_join _ _ (key · ·), numbers_map, Option.map_map, Option.map_map, Option.map_map]
      congr 1
      funext b
      simp [Function.comp, strUint_lang hi, join_nil, flatten_single, quoted]
    · rw [if_neg hu] at ht
      simp only [Bool.or_eq_true, not_or, Bool.not_eq_true] at hu
      rw [if_neg (by rw [hu.1]; decide), if_neg (by rw [hu.2]; decide), if_neg (by rw [hu.1]; decide), if_neg (by rw [hu.2]; decide),
        strLoop_join _ (fun v => shown e field t fi (depth + 1) v) (fun v b => strV_shown e t field fi (depth + 1) v b ht),
        Option.map_map, Option.map_map]
      congr 1
      funext ts
      simp [lit]
theorem strFields_shown (e : SEnv) : ∀ (fs : Fields) (field : String) (c : Option Cfo) (depth : Nat) (sv rest : SV) (buf : Str.Text),
    tidyFields fs = true →
    strFields e field c fs depth sv rest buf = (fields e field c fs depth sv rest).map fun l => l.foldl (put e depth) buf
  | .nil, field, c, depth, sv, rest, buf, ht => by
    simp only [strFields, fields, Option.map_some, List.foldl_nil]
  | .cons f t fs, field, c, depth, sv, rest, buf, ht => by
    unfold tidyFields at ht
    obtain ⟨ht, hts⟩ := Bool.and_eq_true_iff.1 ht
    unfold strFields fields
    simp only
    generalize (if c.isSome = true then sv else e.root) = csv
    generalize ho : (if c.isSome = true then strNested e.beyond e.bd.goName field f.name csv else strRoot e.beyond e.bd.goName f.name csv) = own
    cases hr : resolve (c.getD e.bd.cfo) e.ctx csv f with
    | none => rfl
    | some fi =>
      cases rest with
      | nil => rfl
      | cons p rest =>
        obtain ⟨pn, v⟩ := p
        dsimp only
        have hg := resolve_tags hr
        by_cases hv : isTarget (c.getD e.bd.cfo) e.ctx e.root csv fi = true ∧ f.cnst = "" ∧ f.hidden = false
        · rw [if_pos hv, if_neg (by rw [hv.1, hv.2.1, hv.2.2]; simp)]
          by_cases hx : f.extend = true
          · rw [if_pos hx] at ht
            obtain ⟨hn, ht⟩ := Bool.and_eq_true_iff.1 ht
            have hn : f.name ∉ ownNames := by simpa using hn
            have hown : own = none := by
              rw [← ho, strNested_plain hn, strRoot_plain hn, ite_self]
            have hver : f.name ≠ "Version" := fun h => hn (by rw [h]; decide)
            have hfl : f.name ≠ "Flags" := fun h => hn (by rw [h]; decide)
            have hfx : fi.extend = true := hg.2.2.2.trans hx
            subst hown
            rw [if_pos hx, if_pos hx]
            dsimp only
            rw [if_neg hver, if_neg hfl]
            have step : ∀ (c' : Option Cfo) (fs' : Fields) (sv' : SV), tidyFields fs' = true →
                (strFields e f.name c' fs' depth sv' sv' buf = (fields e f.name c' fs' depth sv' sv').map fun l => l.foldl (put e depth) buf) →
                ((strFields e f.name c' fs' depth sv' sv' buf).bind fun buf =>
                  strFields e field c fs depth sv rest (if (!f.extend && decide (e.indent ≠ [])) = true then buf ++ [10] else buf)) =
                Option.map (fun l => l.foldl (put e depth) buf) ((fields e f.name c' fs' depth sv' sv').bind fun first =>
                  Option.map (fun others => first ++ others) (fields e field c fs depth sv rest)) := by
              intro c' fs' sv' hf' h1
              rw [h1]
              cases fields e f.name c' fs' depth sv' sv' with
              | none => rfl
              | some l1 =>
                rw [Option.map_some, Option.bind_some, Option.bind_some, hx, if_neg (by simp), strFields_shown e fs field c depth sv rest _ hts,
                  Option.map_map]
                congr 1
                funext l2
                simp only [Function.comp, List.foldl_append]
            match t, v, ht with
            | .struct c' fs', .struct sv', ht =>
              have h1 := strFields_shown e fs' f.name c' depth sv' sv' buf ht
              simp only [strV, hfx, if_true]
              exact step c' fs' sv' ht h1
            | .ptr (.struct c' fs'), .ptr (some (.struct sv')), ht =>
              have h1 := strFields_shown e fs' f.name c' depth sv' sv' buf ht
              simp only [strV, hfx, if_true]
              exact step c' fs' sv' ht h1
            | .struct c' fs', .ptr _, _ | .struct c' fs', .uint _, _ | .struct c' fs', .int _, _ | .struct c' fs', .bool _, _
            | .struct c' fs', .str _, _ | .struct c' fs', .arr _, _ | .struct c' fs', .slice _, _ => simp only [strV]; rfl
            | .ptr (.struct c' fs'), .struct _, _ | .ptr (.struct c' fs'), .uint _, _ | .ptr (.struct c' fs'), .int _, _
            | .ptr (.struct c' fs'), .bool _, _ | .ptr (.struct c' fs'), .str _, _ | .ptr (.struct c' fs'), .arr _, _
            | .ptr (.struct c' fs'), .slice _, _ | .ptr (.struct c' fs'), .ptr none, _
            | .ptr (.struct c' fs'), .ptr (some (.ptr _)), _ | .ptr (.struct c' fs'), .ptr (some (.uint _)), _
            | .ptr (.struct c' fs'), .ptr (some (.int _)), _ | .ptr (.struct c' fs'), .ptr (some (.bool _)), _
            | .ptr (.struct c' fs'), .ptr (some (.str _)), _ | .ptr (.struct c' fs'), .ptr (some (.arr _)), _
            | .ptr (.struct c' fs'), .ptr (some (.slice _)), _ => simp only [strV]; rfl
          · rw [if_neg hx] at ht
            rw [if_neg hx, if_neg hx]
            have ht' : tidy t fi = true := by rw [tidy_congr hg]; exact ht
            have hsv := strV_shown e t f.name fi depth v
            generalize hb : (if e.indent ≠ [] then buf ++ indentText e (depth + 1)
              else if buf ≠ [] ∧ buf.getLast? ≠ some 123 then buf ++ [32] else buf) = b0
            have fin : ∀ val : Option Str.Text, ((val.map (b0 ++ (lit f.name ++ [61]) ++ ·)).bind fun buf =>
                  strFields e field c fs depth sv rest (if (!f.extend && decide (e.indent ≠ [])) = true then buf ++ [10] else buf)) =
                Option.map (fun l => l.foldl (put e depth) buf) ((val.map fun value => [lit f.name ++ lit "=" ++ value]).bind fun first =>
                  Option.map (fun others => first ++ others) (fields e field c fs depth sv rest)) := by
              intro val
              cases val with
              | none => rfl
              | some x =>
                rw [Option.map_some, Option.map_some, Option.bind_some, Option.bind_some, strFields_shown e fs field c depth sv rest _ hts, Option.map_map]
                congr 1
                funext l2
                simp only [Function.comp, List.singleton_append, List.foldl_cons]
                congr 1
                unfold put
                subst hb
                by_cases hi : e.indent = []
                · rw [if_neg (by simp [hi]), if_neg (by simp [hi]), if_pos hi]
                  simp [lit]
                · rw [if_pos (by simp [hi, hx]), if_pos hi, if_neg hi]
                  simp [lit]
            cases own with
            | some t => exact fin (some t)
            | none =>
              dsimp only
              by_cases h1 : f.name = "Version"
              · rw [if_pos h1, if_pos h1, num_dec]
                exact fin (some _)
              rw [if_neg h1, if_neg h1]
              by_cases h2 : f.name = "Flags"
              · rw [if_pos h2, if_pos h2, hexPad_eq, List.append_assoc _ (lit "0x")]
                exact fin (some _)
              rw [if_neg h2, if_neg h2, hsv _ ht']
              exact fin _
        · rw [if_neg hv, if_pos (by
            by_cases h1 : isTarget (c.getD e.bd.cfo) e.ctx e.root csv fi = true
            · by_cases h2 : f.cnst = ""
              · refine .inr (.inr ?_)
                cases h3 : f.hidden with
                | true => rfl
                | false => exact absurd ⟨h1, h2, h3⟩ hv
              · exact .inr (.inl h2)
            · exact .inl h1)]
          exact strFields_shown e fs field c depth sv rest buf hts
end

end Mp4.Text
