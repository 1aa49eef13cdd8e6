import Verif.Spec.Main
import Verif.Lemmas.StringifyText

/-!
# Lemmas for C86: options
-/

namespace Mp4.Line

open Mp4 Mp4.Cmd Mp4.Spec Mp4.Str

/-! ## Numbers -/

/-- the number that digits stand for -/
def value (base : Nat) (m : Nat) (ds : List Nat) : Nat := ds.foldl (fun a d => a * base + d) m

theorem value_ge {base : Nat} (hb : 0 < base) : ∀ (ds : List Nat) (m : Nat), m ≤ value base m ds
  | [], _ => Nat.le_refl _
  | d :: ds, m => by
    have := value_ge hb ds (m * base + d)
    have h : m ≤ m * base := Nat.le_mul_of_pos_right m hb
    show m ≤ value base (m * base + d) ds
    omega

theorem num_digits {base : Nat} (hb : 1 < base) : ∀ (fuel n : Nat) (acc : Text), n < fuel → ∃ ds : List Nat, numLoop base fuel n acc = ds.map digitText ++ acc ∧
    (∀ d ∈ ds, d < base) ∧ value base 0 ds = n ∧ (n ≠ 0 → ∃ d l, ds = d :: l ∧ d ≠ 0) ∧ (n = 0 → ds = [0])
  | 0, _, _, h => absurd h (by omega)
  | fuel + 1, n, acc, h => by
    unfold numLoop
    by_cases h0 : n / base = 0
    · rw [if_pos h0]
      have hn : n < base := by
        rcases Nat.div_eq_zero_iff.1 h0 with h | h
        · omega
        · exact h
      rw [Nat.mod_eq_of_lt hn]
      refine ⟨[n], rfl, by simpa using hn, by simp [value], fun h => ⟨n, [], rfl, h⟩, fun h => by rw [h]⟩
    · rw [if_neg h0]
      have hlt : n / base < fuel := by
        have : n ≠ 0 := by intro e; subst e; simp at h0
        have := Nat.div_lt_self (Nat.pos_of_ne_zero this) hb
        omega
      obtain ⟨ds, e, h1, h2, h3, -⟩ := num_digits hb fuel (n / base) (digitText (n % base) :: acc) hlt
      refine ⟨ds ++ [n % base], by rw [e]; simp, ?_, ?_, ?_, ?_⟩
      · intro d hd
        rcases List.mem_append.1 hd with hd | hd
        · exact h1 d hd
        · rw [List.mem_singleton.1 hd]; exact Nat.mod_lt _ (by omega)
      · unfold value at h2 ⊢
        rw [List.foldl_append, h2]
        exact Nat.div_add_mod' n base
      · intro _
        obtain ⟨d, l, e, hd⟩ := h3 h0
        exact ⟨d, l ++ [n % base], by rw [e]; rfl, hd⟩
      · intro e
        subst e
        simp at h0

theorem digit_facts : ∀ d, d < 16 → digitOf (BitVec.ofNat 8 (digitText d)) = some d ∧ BitVec.ofNat 8 (digitText d) ≠ 0x5f ∧ (BitVec.ofNat 8 (digitText d) = 0x30 → d = 0) := by decide

theorem digits_of {base : Nat} (hb : 0 < base) (hb' : base ≤ 16) : ∀ (ds : List Nat) (m : Nat), (∀ d ∈ ds, d < base) → value base m ds < 2 ^ 64 →
    digits base m (chars (ds.map digitText)) = some (value base m ds)
  | [], _, _, _ => rfl
  | d :: ds, m, h, hv => by
    have hd : d < base := h d List.mem_cons_self
    obtain ⟨e1, e2, -⟩ := digit_facts d (by omega)
    have hle := value_ge hb ds (m * base + d)
    have hv' : value base (m * base + d) ds < 2 ^ 64 := hv
    show digits base m (BitVec.ofNat 8 (digitText d) :: chars (ds.map digitText)) = _
    rw [digits, if_neg e2, e1]
    simp only
    rw [if_neg (by omega), if_neg (by omega)]
    exact digits_of hb hb' ds _ (fun d hd => h d (List.mem_cons_of_mem _ hd)) hv

theorem no_underscore {base : Nat} (hb' : base ≤ 16) (ds : List Nat) (h : ∀ d ∈ ds, d < base) : (chars (ds.map digitText)).contains 0x5f = false := by
  rw [List.contains_eq_mem, decide_eq_false_iff_not]
  intro hm
  unfold chars at hm
  rw [List.map_map] at hm
  obtain ⟨d, hd, e⟩ := List.mem_map.1 hm
  exact (digit_facts d (by have := h d hd; omega)).2.1 e

theorem parse_dec (n : Nat) (h : n < 2 ^ 64) : parseUint (chars (Text.dec n)) = some n := by
  obtain ⟨ds, e, h1, h2, h3, h4⟩ := num_digits (base := 10) (by decide) (n + 1) n [] (by omega)
  have e' : Text.dec n = ds.map digitText := by rw [← Mp4.Text.num_dec]; unfold num; rw [e, List.append_nil]
  rw [e']
  by_cases h0 : n = 0
  · subst h0
    rw [h4 rfl]
    decide
  · obtain ⟨d, l, rfl, hd⟩ := h3 h0
    have hn : BitVec.ofNat 8 (digitText d) ≠ 0x30 := fun e => hd ((digit_facts d (by have := h1 d List.mem_cons_self; omega)).2.2 e)
    have hb : basePrefix (chars ((d :: l).map digitText)) = (10, chars ((d :: l).map digitText)) := by
      show basePrefix (BitVec.ofNat 8 (digitText d) :: chars (l.map digitText)) = _
      unfold basePrefix
      split
      · rename_i heq; exact absurd (List.cons.inj heq).1 hn
      · rename_i heq; exact absurd (List.cons.inj heq).1 hn
      · rfl
    unfold parseUint
    rw [if_neg (by simp [chars]), hb]
    simp only
    rw [digits_of (by decide) (by decide) _ 0 h1 (by rw [h2]; exact h), no_underscore (by decide) _ h1, h2]
    rfl

theorem parse_hex (n : Nat) (h : n < 2 ^ 64) : parseUint (chars (48 :: 120 :: Text.hex n)) = some n := by
  obtain ⟨ds, e, h1, h2, h3, h4⟩ := num_digits (base := 16) (by decide) (n + 1) n [] (by omega)
  have e' : Text.hex n = ds.map digitText := by rw [← Mp4.Text.num_hex]; unfold num; rw [e, List.append_nil]
  obtain ⟨d, l, rfl⟩ : ∃ d l, ds = d :: l := by
    by_cases h0 : n = 0
    · exact ⟨0, [], h4 h0⟩
    · obtain ⟨d, l, e, -⟩ := h3 h0
      exact ⟨d, l, e⟩
  rw [e']
  have hb : basePrefix (chars (48 :: 120 :: (d :: l).map digitText)) = (16, chars ((d :: l).map digitText)) := by
    show basePrefix (0x30#8 :: 0x78#8 :: BitVec.ofNat 8 (digitText d) :: chars (l.map digitText)) = _
    rw [basePrefix]
    rfl
  have hu : (chars (48 :: 120 :: (d :: l).map digitText)).contains 0x5f = false := by
    have := no_underscore (by decide) _ h1
    show ((0x30#8 :: 0x78#8 :: chars ((d :: l).map digitText)).contains 0x5f) = false
    rw [List.contains_cons, List.contains_cons, this]
    decide
  unfold parseUint
  rw [if_neg (by simp [chars]), hb]
  simp only
  rw [digits_of (by decide) (by decide) _ 0 h1 (by rw [h2]; exact h), hu, h2]
  rfl

theorem denotes_set {k : OptKind} {v : OptValue} {t : Bytes} (h : Denotes k v t) : setValue k t = some v := by
  cases h with
  | text => rfl
  | decimal n h => simp only [setValue, parse_dec n h, Option.map_some]
  | hexadecimal n h => simp only [setValue, parse_hex n h, Option.map_some]
  | yes => decide
  | no => decide

/-! ## Options -/

/-- names of options: not empty, no dash in front, no sign of equality -/
def Named (name : Bytes) : Prop := name ≠ [] ∧ name.head? ≠ some 0x2d ∧ ∀ c ∈ name, c ≠ 0x3d

theorem cut_none : ∀ l : Bytes, (∀ c ∈ l, c ≠ 0x3d) → cutValue l = (l, none)
  | [], _ => rfl
  | x :: l, h => by
    rw [cutValue, if_neg (h x List.mem_cons_self), cut_none l fun c hc => h c (List.mem_cons_of_mem _ hc)]

theorem cut_some (t : Bytes) : ∀ l : Bytes, (∀ c ∈ l, c ≠ 0x3d) → cutValue (l ++ 0x3d :: t) = (l, some t)
  | [], _ => rfl
  | x :: l, h => by
    rw [List.cons_append, cutValue, if_neg (h x List.mem_cons_self), cut_some t l fun c hc => h c (List.mem_cons_of_mem _ hc)]

theorem name_none {name : Bytes} (h : Named name) : nameValue name = .option name none := by
  obtain ⟨h1, h2, h3⟩ := h
  cases name with
  | nil => exact absurd rfl h1
  | cons x l =>
    rw [nameValue, if_neg (by
      rintro (e | e)
      · exact h2 (by rw [e]; rfl)
      · exact h3 x List.mem_cons_self e), cut_none l fun c hc => h3 c (List.mem_cons_of_mem _ hc)]

theorem name_some {name : Bytes} (h : Named name) (t : Bytes) : nameValue (name ++ 0x3d :: t) = .option name (some t) := by
  obtain ⟨h1, h2, h3⟩ := h
  cases name with
  | nil => exact absurd rfl h1
  | cons x l =>
    rw [List.cons_append, nameValue, if_neg (by
      rintro (e | e)
      · exact h2 (by rw [e]; rfl)
      · exact h3 x List.mem_cons_self e), cut_some t l fun c hc => h3 c (List.mem_cons_of_mem _ hc)]

theorem seen_dashes {dashes s : Bytes} (h : Dashes dashes) (h1 : s ≠ []) (h2 : s.head? ≠ some 0x2d) : seen (dashes ++ s) = nameValue s := by
  cases s with
  | nil => exact absurd rfl h1
  | cons x l =>
    have hx : x ≠ 0x2d := fun e => h2 (by rw [e]; rfl)
    rcases h with rfl | rfl
    · show seen (0x2d :: x :: l) = _
      rw [seen, if_neg (by decide), if_neg hx]
    · show seen (0x2d :: 0x2d :: x :: l) = _
      rw [seen, if_neg (by decide), if_pos rfl, if_neg (by simp)]

theorem kind_of {decl : List (Bytes × OptKind)} (hn : (decl.map (·.1)).Nodup) {name : Bytes} {k : OptKind} (h : (name, k) ∈ decl) : kindOf decl name = some k := by
  unfold kindOf
  induction decl with
  | nil => cases h
  | cons x l ih =>
    rw [List.map_cons, List.nodup_cons] at hn
    rw [List.find?_cons]
    by_cases e : x.1 = name
    · rw [beq_iff_eq.2 e]
      rcases List.mem_cons.1 h with rfl | h'
      · rfl
      · exact absurd (List.mem_map.2 ⟨_, h', rfl⟩) (e ▸ hn.1)
    · rw [beq_eq_false_iff_ne.2 e]
      rcases List.mem_cons.1 h with rfl | h'
      · exact absurd rfl e
      · exact ih hn.2 h'

/-- the options that a command declares -/
def Declared (decl : List (Bytes × OptKind)) : Prop := (decl.map (·.1)).Nodup ∧ ∀ x ∈ decl, Named x.1

/-- one option -/
theorem parse_one {decl : List (Bytes × OptKind)} (hd : Declared decl) {name : Bytes} {k : OptKind} (hm : (name, k) ∈ decl) {v : OptValue} {opt : List Bytes} (h : Writes name k v opt)
    (rest : List Bytes) : parse decl (opt ++ rest) = (parse decl rest).cons (name, v) := by
  have hk := kind_of hd.1 hm
  have hN : Named name := hd.2 _ hm
  cases h with
  | @switch dashes h =>
    show parse decl ((dashes ++ name) :: rest) = _
    rw [parse.eq_def]
    simp only [seen_dashes h hN.1 hN.2.1, name_none hN, hk]
  | @sign dashes h k v t hv =>
    show parse decl ((dashes ++ name ++ 0x3d :: t) :: rest) = _
    rw [parse.eq_def]
    have hh : (name ++ 0x3d :: t).head? ≠ some 0x2d := by
      cases hname : name with
      | nil => exact absurd hname hN.1
      | cons x l => have := hN.2.1; rw [hname] at this; simpa using this
    simp only [List.append_assoc, seen_dashes h (s := name ++ 0x3d :: t) (by simp) hh, name_some hN, hk]
    cases k <;> simp only [denotes_set hv, withValue]
  | @apart dashes h k hks v t hv =>
    show parse decl ((dashes ++ name) :: t :: rest) = _
    rw [parse.eq_def]
    simp only [seen_dashes h hN.1 hN.2.1, name_none hN, hk]
    cases k
    · exact absurd rfl hks
    all_goals simp only [denotes_set hv, withValue]

theorem parse_line {decl : List (Bytes × OptKind)} (hd : Declared decl) {vals : List (Bytes × OptValue)} {opts : List Bytes} (h : Line decl vals opts) (rest : List Bytes) {rest' : List Bytes}
    (hr : parse decl rest = .ok [] rest') : parse decl (opts ++ rest) = .ok vals rest' := by
  induction h with
  | nil => exact hr
  | cons hm hw _ ih => rw [List.append_assoc, parse_one hd hm hw, ih]; rfl

theorem parse_operand (decl : List (Bytes × OptKind)) {s : Bytes} (h : Operand s) (rest : List Bytes) : parse decl (s :: rest) = .ok [] (s :: rest) := by
  have : seen s = .operand := by
    rcases h with rfl | h
    · rfl
    · match s, h with
      | [], _ => rfl
      | [_], _ => rfl
      | x :: y :: l, h =>
        rw [seen, if_pos]
        intro e
        exact h (by rw [e]; rfl)
  rw [parse.eq_def]
  simp only [this]

theorem parse_stop (decl : List (Bytes × OptKind)) (rest : List Bytes) : parse decl ([0x2d, 0x2d] :: rest) = .ok [] rest := by
  rw [parse.eq_def]
  rfl

instance : ∀ decl : List (Bytes × OptKind), Decidable (Declared decl) := fun decl => by unfold Declared Named; exact inferInstance

theorem dump_declared : Declared dumpFlags := by decide +kernel
theorem probe_declared : Declared probeFlags := by decide +kernel
theorem edit_declared : Declared editFlags := by decide +kernel
theorem extract_declared : Declared [] := by decide +kernel

theorem value_said (vals : List (Bytes × OptValue)) (name : String) (d : OptValue) : valueOf vals name d = (said vals name).getD d := by
  unfold valueOf said
  rw [← List.head?_filter, List.filter_reverse, List.head?_reverse]
  congr 3
  exact List.filter_congr fun x _ => by rw [Bool.beq_eq_decide_eq]

end Mp4.Line
