import Verif.Model.Tags

/-!
# C44: interpretation of struct tags
-/

namespace Mp4.Props

open Mp4 Mp4.Tag

/-! ## Parsing -/

theorem split_ne_nil (c : Char) (s : Txt) : split c s ≠ [] := by
  cases s with
  | nil => simp [split]
  | cons x xs =>
    unfold split
    split
    · simp
    · split <;> simp

/-- The elements of a tag are the pieces between the commas: no piece has a comma, and with commas in between they make up the tag. -/
theorem tag_elements : ∀ (s : Txt), (∀ w ∈ split ',' s, ',' ∉ w) ∧ List.intercalate [','] (split ',' s) = s
  | [] => by simp [split, List.intercalate]
  | x :: xs => by
    obtain ⟨h1, h2⟩ := tag_elements xs
    obtain ⟨w, ws, hw⟩ := List.exists_cons_of_ne_nil (split_ne_nil ',' xs)
    unfold split
    rw [hw] at h1 h2 ⊢
    by_cases hx : x = ','
    · rw [if_pos hx]
      refine ⟨?_, ?_⟩
      · intro v hv
        rcases List.mem_cons.1 hv with rfl | hv
        · simp
        · exact h1 v hv
      · rw [← h2, hx]
        simp [List.intercalate, List.intersperse]
    · rw [if_neg hx]
      refine ⟨?_, ?_⟩
      · intro v hv
        rcases List.mem_cons.1 hv with rfl | hv
        · intro hm
          rcases List.mem_cons.1 hm with hm | hm
          · exact hx hm.symm
          · exact h1 w List.mem_cons_self hm
        · exact h1 v (List.mem_cons_of_mem _ hv)
      · rw [← h2]
        cases ws with
        | nil => simp [List.intercalate, List.intersperse]
        | cons y ys => simp [List.intercalate, List.intersperse]

theorem get_set (k v k' : Txt) : ∀ (m : TagMap), (m.set k v).get k' = if k = k' then some v else m.get k'
  | [] => by simp [TagMap.set, TagMap.get]
  | (a, b) :: m => by
    unfold TagMap.set
    by_cases h : a = k
    · rw [if_pos h]
      subst h
      unfold TagMap.get
      split <;> rfl
    · rw [if_neg h]
      unfold TagMap.get
      rw [get_set k v k' m]
      by_cases h2 : a = k'
      · rw [if_pos h2, if_pos h2, if_neg (by rintro rfl; exact h h2)]
      · rw [if_neg h2, if_neg h2]

/-- The value of a key is that of the last element of the tag with that key. -/
theorem tag_value (s k : Txt) :
    (parseFieldTag s).get k = (((split ',' s).map pairOf).reverse.find? fun p => p.1 = k).map (·.2) := by
  unfold parseFieldTag
  have : ∀ (l : List Txt) (m : TagMap), (l.foldl (fun m e => m.set (pairOf e).1 (pairOf e).2) m).get k =
      ((((l.map pairOf).reverse.find? fun p => p.1 = k).map (·.2)).or (m.get k)) := by
    intro l
    induction l with
    | nil => intro m; simp
    | cons e l ih =>
      intro m
      rw [List.foldl_cons, ih, get_set, List.map_cons, List.reverse_cons, List.find?_append]
      by_cases h : (pairOf e).1 = k
      · cases h2 : (List.map pairOf l).reverse.find? fun p => p.1 = k <;> simp [h]
      · cases h2 : (List.map pairOf l).reverse.find? fun p => p.1 = k <;> simp [h]
  rw [this]
  simp [TagMap.get]

/-- The text `s` is `t` with blanks before and after it, and `t` neither starts nor ends with a blank. -/
def Within (s t : Txt) : Prop :=
  ∃ a b, s = List.replicate a ' ' ++ t ++ List.replicate b ' ' ∧ t.head? ≠ some ' ' ∧ t.getLast? ≠ some ' '

/-- An element of a tag is `key=value` or `key`; blanks around key and value do not count.  The key ends at the first `=`. -/
def IsPair (e k v : Txt) : Prop :=
  (∃ x y, e = x ++ '=' :: y ∧ '=' ∉ x ∧ Within x k ∧ Within y v) ∨ ('=' ∉ e ∧ Within e k ∧ v = [])

theorem dropWhile_blanks : ∀ s : Txt, ∃ a, s = List.replicate a ' ' ++ s.dropWhile (· = ' ') ∧ (s.dropWhile (· = ' ')).head? ≠ some ' '
  | [] => ⟨0, rfl, by simp⟩
  | c :: s => by
    by_cases h : c = ' '
    · obtain ⟨a, h1, h2⟩ := dropWhile_blanks s
      rw [List.dropWhile_cons, if_pos (by simpa using h)]
      refine ⟨a + 1, ?_, h2⟩
      rw [List.replicate_succ, List.cons_append, ← h1, h]
    · rw [List.dropWhile_cons, if_neg (by simpa using h)]
      exact ⟨0, rfl, by simpa using h⟩

theorem trim_within (s : Txt) : Within s (trim s) := by
  obtain ⟨a, h1, h2⟩ := dropWhile_blanks s
  obtain ⟨b, h3, h4⟩ := dropWhile_blanks (s.dropWhile (· = ' ')).reverse
  have e := congrArg List.reverse h3
  rw [List.reverse_reverse, List.reverse_append, List.reverse_replicate] at e
  unfold trim
  refine ⟨a, b, ?_, ?_, ?_⟩
  · rw [List.append_assoc, ← e, ← h1]
  · intro hc
    apply h2
    rw [e]
    cases hr : ((s.dropWhile (· = ' ')).reverse.dropWhile (· = ' ')).reverse with
    | nil => rw [hr] at hc; cases hc
    | cons x l => rw [hr] at hc; exact hc
  · rw [List.getLast?_reverse]
    exact h4

theorem cut_spec : ∀ e : Txt, (∀ y, (cut e).2 = some y → e = (cut e).1 ++ '=' :: y ∧ '=' ∉ (cut e).1) ∧
    ((cut e).2 = none → (cut e).1 = e ∧ '=' ∉ e)
  | [] => by simp [cut]
  | c :: e => by
    obtain ⟨h1, h2⟩ := cut_spec e
    unfold cut
    by_cases h : c = '='
    · rw [if_pos h]
      refine ⟨?_, by simp⟩
      intro y hy
      cases hy
      exact ⟨by rw [h]; rfl, by simp⟩
    · rw [if_neg h]
      refine ⟨?_, ?_⟩
      · intro y hy
        obtain ⟨g1, g2⟩ := h1 y hy
        exact ⟨by rw [List.cons_append, ← g1], by simpa [g2] using fun x => h x.symm⟩
      · intro hy
        obtain ⟨g1, g2⟩ := h2 hy
        exact ⟨by rw [g1], by simpa [g2] using fun x => h x.symm⟩

/-- **C44**, elements — Key and value of an element of a tag. -/
theorem tag_pair (e : Txt) : IsPair e (pairOf e).1 (pairOf e).2 := by
  obtain ⟨h1, h2⟩ := cut_spec e
  unfold pairOf
  cases hc : cut e with
  | mk k o =>
    rw [hc] at h1 h2
    cases o with
    | some v =>
      obtain ⟨g1, g2⟩ := h1 v rfl
      exact .inl ⟨k, v, g1, g2, trim_within k, trim_within v⟩
    | none =>
      obtain ⟨g1, g2⟩ := h2 rfl
      simp only at g1
      subst g1
      exact .inr ⟨g2, trim_within k, rfl⟩

example : IsPair " const = a=b ".toList "const".toList "a=b".toList :=
  .inl ⟨" const ".toList, " a=b ".toList, by decide, by decide, ⟨1, 1, by decide, by decide, by decide⟩, ⟨1, 1, by decide, by decide, by decide⟩⟩

/-! ## Numbers -/

theorem digit_digitChar : ∀ d, d < 16 → digit 16 (Nat.digitChar d) = some d ∧ (d < 10 → digit 10 (Nat.digitChar d) = some d) := by decide

theorem digits_core {base : Nat} (hb : 2 ≤ base) (hd : ∀ d, d < base → digit base (Nat.digitChar d) = some d) : ∀ (fuel n : Nat) (acc : Txt),
    n < fuel → digits base 0 (Nat.toDigitsCore base fuel n acc) = digits base n acc
  | 0, _, _, h => by omega
  | fuel + 1, n, acc, h => by
    have hm := Nat.mod_lt n (show 0 < base by omega)
    unfold Nat.toDigitsCore
    by_cases h0 : n / base = 0
    · have : n % base = n := Nat.mod_eq_of_lt ((Nat.div_eq_zero_iff_lt (by omega)).1 h0)
      simp only [if_pos h0, digits, hd _ hm, Option.bind_some, Nat.zero_mul, Nat.zero_add]
      rw [this]
    · have hlt : n / base < n := Nat.div_lt_self (Nat.pos_of_ne_zero (by rintro rfl; simp at h0)) hb
      simp only [if_neg h0]
      rw [digits_core hb hd fuel _ _ (by omega)]
      simp only [digits, hd _ hm, Option.bind_some]
      rw [Nat.mul_comm, Nat.div_add_mod]

theorem core_ne_nil (base : Nat) : ∀ (fuel n : Nat) (acc : Txt), 0 < fuel ∨ acc ≠ [] → Nat.toDigitsCore base fuel n acc ≠ []
  | 0, _, acc, h => by simpa [Nat.toDigitsCore] using h
  | fuel + 1, n, acc, _ => by
    unfold Nat.toDigitsCore
    by_cases h0 : n / base = 0
    · simp [h0]
    · simp only [if_neg h0]
      exact core_ne_nil base fuel _ _ (.inr (by simp))

theorem digits_all (base : Nat) : ∀ (s : Txt) (a n : Nat), digits base a s = some n → ∀ c ∈ s, ∃ v, digit base c = some v
  | [], _, _, _, c, hc => by cases hc
  | x :: s, a, n, h, c, hc => by
    unfold digits at h
    obtain ⟨v, hv, h⟩ := Option.bind_eq_some_iff.1 h
    rcases List.mem_cons.1 hc with rfl | hc
    · exact ⟨v, hv⟩
    · exact digits_all base s _ n h c hc

/-- **C44**, numbers — The flags after `opt` and `nopt` may be written in decimal, or in hexadecimal after `0x`: in either way they are what is written.
What is written otherwise has no meaning. -/
theorem tag_flag_number (n : Nat) :
    flagNumber ('0' :: 'x' :: Nat.toDigits 16 n) = (if n < 2 ^ 32 then some n else none) ∧
    flagNumber (Nat.toDigits 10 n) = (if n < 2 ^ 32 then some n else none) := by
  have h16 : digits 16 0 (Nat.toDigits 16 n) = some n := digits_core (by decide) (fun d hd => (digit_digitChar d hd).1) (n + 1) n [] (by omega)
  have h10 : digits 10 0 (Nat.toDigits 10 n) = some n :=
    digits_core (by decide) (fun d hd => (digit_digitChar d (by omega)).2 hd) (n + 1) n [] (by omega)
  have n16 : Nat.toDigits 16 n ≠ [] := core_ne_nil 16 (n + 1) n [] (.inl (by omega))
  have n10 : Nat.toDigits 10 n ≠ [] := core_ne_nil 10 (n + 1) n [] (.inl (by omega))
  constructor
  · unfold flagNumber parseUint
    simp only
    rw [if_neg n16, h16, Option.bind_some]
  · have : flagNumber (Nat.toDigits 10 n) = parseUint 10 (Nat.toDigits 10 n) := by
      unfold flagNumber
      split
      · rename_i rest he
        rw [he] at h10
        obtain ⟨v, hv⟩ := digits_all 10 _ _ _ h10 'x' (by simp)
        rw [show digit 10 'x' = none by decide] at hv
        cases hv
      · rfl
    rw [this]
    unfold parseUint
    rw [if_neg n10, h10, Option.bind_some]

/-- **C44**, numbers — A version is a number from 0 to 255 in decimal. -/
theorem tag_version_number (n : Nat) : versionNumber (Nat.toDigits 10 n) = if n ≤ 255 then some n else none := by
  have h10 : digits 10 0 (Nat.toDigits 10 n) = some n :=
    digits_core (by decide) (fun d hd => (digit_digitChar d (by omega)).2 hd) (n + 1) n [] (by omega)
  have n10 : Nat.toDigits 10 n ≠ [] := core_ne_nil 10 (n + 1) n [] (.inl (by omega))
  have hall := digits_all 10 _ _ _ h10
  generalize Nat.toDigits 10 n = s at h10 n10 hall
  have hs : ∀ c : Char, (∀ v, digit 10 c ≠ some v) → s.head? ≠ some c := by
    intro c hc h
    obtain ⟨v, hv⟩ := hall c (List.mem_of_head? h)
    exact hc v hv
  have hm := hs '-' (fun v hv => by rw [show digit 10 '-' = none by decide] at hv; cases hv)
  have hp := hs '+' (fun v hv => by rw [show digit 10 '+' = none by decide] at hv; cases hv)
  unfold versionNumber atoi
  simp only [hm, hp, or_self, if_false, h10, Option.bind_some, n10]
  by_cases h : n < 2 ^ 63
  · rw [if_pos h, Option.bind_some]
    by_cases h2 : n ≤ 255
    · rw [if_neg (by omega), if_pos h2]
      congr 1
      omega
    · rw [if_pos (by omega), if_neg h2]
  · rw [if_neg h, if_neg (by omega)]
    rfl

example : flagNumber "0x000001".toList = some 1 ∧ flagNumber "16".toList = some 16 ∧ flagNumber "0xg".toList = none ∧ flagNumber "x1".toList = none := by
  decide

/-! ## The order of iteration -/

theorem orderOf_eq (m : TagMap) : orderOf m = ((m.filterMap orderKey).head?).getD 0 := by
  unfold orderOf
  rw [List.head?_filterMap]

/-- **C44**, partial — If at most one element of the tag is an order key, the field does not depend on the order in which `range`
presents the map.  (Missing: tags with several order keys, see `order_depends`; the library has none, see `catalogue_layout`.) -/
theorem order_independent_partial (name : String) (tag : Txt) (it : TagMap) (hp : it.Perm (parseFieldTag tag))
    (h1 : ((parseFieldTag tag).filterMap orderKey).length ≤ 1) :
    buildField it name tag = buildField (parseFieldTag tag) name tag := by
  have hf := hp.filterMap orderKey
  have : it.filterMap orderKey = (parseFieldTag tag).filterMap orderKey := by
    match hm : (parseFieldTag tag).filterMap orderKey, h1 with
    | [], _ => rw [hm] at hf; exact hf.eq_nil
    | [x], _ => rw [hm] at hf; exact List.perm_singleton.1 hf
  unfold buildField
  rw [orderOf_eq, orderOf_eq, this]

/-- **C44**, refuted in full — With two order keys the place of the field depends on the order in which `range` presents the map, which Go does
not fix. -/
theorem order_depends : ∃ (tag : Txt) (it it' : TagMap), it.Perm (parseFieldTag tag) ∧ it'.Perm (parseFieldTag tag) ∧
    (buildField it "X" tag).map (·.1) = some 0 ∧ (buildField it' "X" tag).map (·.1) = some 1 :=
  ⟨"0,1,size=8".toList, parseFieldTag "0,1,size=8".toList, (parseFieldTag "0,1,size=8".toList).reverse, .refl _,
    List.reverse_perm _, by decide +kernel, by decide +kernel⟩

/-! ## Sorting -/

theorem insertBy_perm {α : Type} (x : Int × α) : ∀ (l : List (Int × α)), (insertBy x l).Perm (x :: l)
  | [] => .refl _
  | y :: l => by
    unfold insertBy
    split
    · exact .refl _
    · exact ((insertBy_perm x l).cons y).trans (.swap x y l)

theorem insertBy_sorted {α : Type} (x : Int × α) : ∀ (l : List (Int × α)), l.Pairwise (fun a b => a.1 ≤ b.1) →
    (insertBy x l).Pairwise (fun a b => a.1 ≤ b.1)
  | [], _ => by simp [insertBy]
  | y :: l, h => by
    obtain ⟨h1, h2⟩ := List.pairwise_cons.1 h
    unfold insertBy
    split
    · rename_i hlt
      refine List.pairwise_cons.2 ⟨?_, h⟩
      intro z hz
      rcases List.mem_cons.1 hz with rfl | hz
      · omega
      · have := h1 z hz
        omega
    · rename_i hlt
      refine List.pairwise_cons.2 ⟨?_, insertBy_sorted x l h2⟩
      intro z hz
      rcases List.mem_cons.1 ((insertBy_perm x l).mem_iff.1 hz) with rfl | hz
      · omega
      · exact h1 z hz

theorem insertBy_stable {α : Type} (x : Int × α) (o : Int) : ∀ (l : List (Int × α)), l.Pairwise (fun a b => a.1 ≤ b.1) →
    (insertBy x l).filter (fun a => a.1 = o) = (l ++ [x]).filter (fun a => a.1 = o)
  | [], _ => rfl
  | y :: l, h => by
    obtain ⟨h1, h2⟩ := List.pairwise_cons.1 h
    unfold insertBy
    split
    · rename_i hlt
      by_cases hx : x.1 = o
      · have : (y :: l).filter (fun a => a.1 = o) = [] := by
          rw [List.filter_eq_nil_iff]
          intro z hz
          rcases List.mem_cons.1 hz with rfl | hz
          · simp only [decide_eq_true_eq]; omega
          · have := h1 z hz
            simp only [decide_eq_true_eq]; omega
        rw [List.filter_append, this, List.filter_cons, this]
        simp [hx]
      · simp [List.filter_append, List.filter_cons, hx]
    · rw [List.filter_cons, insertBy_stable x o l h2, List.cons_append, List.filter_cons]

/-- **C44** — Fields are sorted by their order, none is lost or added, and fields of the same order stay in the order of the declaration. -/
theorem fields_sorted {α : Type} (l : List (Int × α)) :
    (sortBy l).Perm l ∧ (sortBy l).Pairwise (fun a b => a.1 ≤ b.1) ∧
    ∀ o, (sortBy l).filter (fun a => a.1 = o) = l.filter (fun a => a.1 = o) := by
  unfold sortBy
  have : ∀ (l acc : List (Int × α)), acc.Pairwise (fun a b => a.1 ≤ b.1) →
      (l.foldl (fun acc x => insertBy x acc) acc).Perm (acc ++ l) ∧
      (l.foldl (fun acc x => insertBy x acc) acc).Pairwise (fun a b => a.1 ≤ b.1) ∧
      ∀ o, (l.foldl (fun acc x => insertBy x acc) acc).filter (fun a => a.1 = o) = (acc ++ l).filter (fun a => a.1 = o) := by
    intro l
    induction l with
    | nil => intro acc h; rw [List.append_nil]; exact ⟨.refl _, h, fun _ => rfl⟩
    | cons x l ih =>
      intro acc h
      obtain ⟨i1, i2, i3⟩ := ih (insertBy x acc) (insertBy_sorted x acc h)
      rw [List.foldl_cons]
      refine ⟨i1.trans ?_, i2, fun o => ?_⟩
      · exact ((insertBy_perm x acc).append_right l).trans List.perm_middle.symm
      · rw [i3 o, List.filter_append, insertBy_stable x o acc h, ← List.filter_append, List.append_assoc]
        rfl
  have := this l [] .nil
  rwa [List.nil_append] at this

/-! ## The box types of the library -/

theorem buildAll_canon (it : String → Txt → TagMap) (hit : ∀ n t, (it n t).Perm (parseFieldTag t)) : ∀ (ds : Decl),
    (∀ x ∈ ds, ((parseFieldTag x.2.1.toList).filterMap orderKey).length ≤ 1) →
    buildAll it ds = buildAll (fun _ t => parseFieldTag t) ds
  | [], _ => rfl
  | (name, tag, ty) :: ds, h => by
    unfold buildAll
    rw [order_independent_partial name tag.toList _ (hit _ _) (h _ List.mem_cons_self),
      buildAll_canon it hit ds fun x hx => h x (List.mem_cons_of_mem _ hx)]

theorem decls_layout : decls.map (fun p => (buildFieldsStruct (fun _ t => parseFieldTag t) p.1).map Fields.ofList) =
    decls.map fun p => some p.2 := by rfl

theorem decls_keys : ∀ p ∈ decls, ∀ x ∈ p.1, ((parseFieldTag x.2.1.toList).filterMap orderKey).length ≤ 1 := by
  have : ∀ t ∈ decls.flatMap (fun p => p.1.map (·.2.1)), ((parseFieldTag t.toList).filterMap orderKey).length ≤ 1 := by
    decide +kernel
  intro p hp x hx
  exact this _ (List.mem_flatMap.2 ⟨p, hp, List.mem_map.2 ⟨x, hx, rfl⟩⟩)

/-- **C44** — For every struct of the library, in whatever order `range` presents the maps, its tags are accepted and give the layout that
the codec uses (and that all other theorems are about). -/
theorem catalogue_layout (it : String → Txt → TagMap) (hit : ∀ n t, (it n t).Perm (parseFieldTag t)) :
    ∀ p ∈ decls, (buildFieldsStruct it p.1).map Fields.ofList = some p.2 := by
  intro p hp
  unfold buildFieldsStruct
  rw [buildAll_canon it hit p.1 (decls_keys p hp)]
  obtain ⟨i, hi, rfl⟩ := List.mem_iff_getElem.1 hp
  have := congrArg (fun l => l[i]?) decls_layout
  simp only [List.getElem?_map, List.getElem?_eq_getElem hi, Option.map_some] at this
  exact Option.some.inj this

/-- the orders assumed in `catalogue_layout` exist -/
example := catalogue_layout (fun _ t => (parseFieldTag t).reverse) fun _ _ => List.reverse_perm _

/-- `FullBox` has the layout used for it. -/
theorem fullBox_layout (it : String → Txt → TagMap) (hit : ∀ n t, (it n t).Perm (parseFieldTag t)) :
    (buildFieldsStruct it declFullBox).map (fun l => Ty.struct (some Cfo.base) (Fields.ofList l)) = some fullBoxTy := by
  unfold buildFieldsStruct
  rw [buildAll_canon it hit declFullBox (by decide +kernel)]
  rfl

example := order_independent_partial "Data" "3,size=8,string".toList _ (List.reverse_perm _) (by decide +kernel)

end Mp4.Props
