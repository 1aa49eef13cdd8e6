import Verif.Lemmas.Box
import Verif.Spec.Golden

/-! # Layouts of particular boxes -/

namespace Mp4

open Mp4.Spec

theorem natBits_byte (b : Byte) : natBits 8 b.toNat = byteBits b := by
  revert b; decide

@[simp] theorem goBytes_length (b : Bytes) : (goBytes b).length = b.length := by simp [goBytes]

theorem fitsList_const {ok : Val → Nat → Bool} {bits : Val → List Bool} (k : Nat) : ∀ (l : List Val) (left : Nat),
    (∀ x ∈ l, (bits x).length = k ∧ ∀ j, k ≤ j → ok x j = true) → k * l.length ≤ left → fitsList ok bits l left = true
  | [], _, _, _ => rfl
  | v :: vs, left, h, hl => by
    have h1 := h v List.mem_cons_self
    have h2 : k * (vs.length + 1) = k * vs.length + k := Nat.mul_succ _ _
    rw [List.length_cons, h2] at hl
    simp only [fitsList, h1.1, Bool.and_eq_true, decide_eq_true_eq]
    exact ⟨⟨h1.2 left (by omega), by omega⟩,
      fitsList_const k vs _ (fun x hx => h x (List.mem_cons_of_mem _ hx)) (by omega)⟩

theorem fitsList_const8 {ok : Val → Nat → Bool} {bits : Val → List Bool} (k : Nat) (h8 : k % 8 = 0) : ∀ (l : List Val) (left : Nat),
    left % 8 = 0 → (∀ x ∈ l, (bits x).length = k ∧ ∀ j, k ≤ j → j % 8 = 0 → ok x j = true) → k * l.length ≤ left →
    fitsList ok bits l left = true
  | [], _, _, _, _ => rfl
  | v :: vs, left, hl8, h, hl => by
    have h1 := h v List.mem_cons_self
    have h2 : k * (vs.length + 1) = k * vs.length + k := Nat.mul_succ _ _
    rw [List.length_cons, h2] at hl
    simp only [fitsList, h1.1, Bool.and_eq_true, decide_eq_true_eq]
    exact ⟨⟨h1.2 left (by omega) hl8, by omega⟩,
      fitsList_const8 k h8 vs _ (by omega) (fun x hx => h x (List.mem_cons_of_mem _ hx)) (by omega)⟩

/-- A `[]byte` that reaches to the end of the payload, or has a length of its own. -/
@[simp] theorem layout_goBytes (e : Env) (fi : Field) (hs : fi.size = 8) (hv : fi.varint = false) (d : Bytes)
    (hl : fi.length = lengthUnlimited ∨ fi.length = d.length) :
    layoutV e (.slice (.uint 8)) fi (.slice (goBytes d)) = bytesBits d := by
  have hc : counted fi (goBytes d) = goBytes d := by
    unfold counted
    rcases hl with h | h
    · rw [if_pos h]
    · split
      · rfl
      · rw [h]; exact List.take_of_length_le (by simp)
  rw [layoutV]
  simp only [hc]
  clear hc hl
  induction d with
  | nil => rfl
  | cons b d ih =>
    simp only [goBytes, List.map_cons, List.flatMap_cons] at ih ⊢
    rw [ih]
    simp only [layoutV, hs, hv, Bool.false_eq_true, if_false, natBits_byte]
    rfl

@[simp] theorem fits_goBytes (e : Env) (fi : Field) (hs : fi.size = 8) (hv : fi.varint = false) (d : Bytes) (left : Nat)
    (h : 8 * d.length ≤ left)
    (hl : (fi.length = lengthUnlimited ∧ left = 8 * d.length) ∨ (fi.length ≠ lengthUnlimited ∧ fi.length = d.length)) :
    fitsV e (.slice (.uint 8)) fi (.slice (goBytes d)) left = true := by
  have hx : ∀ x ∈ goBytes d, ∃ b : Byte, x = .uint b.toNat := fun x hx => by
    obtain ⟨b, _, rfl⟩ := List.mem_map.1 hx
    exact ⟨b, rfl⟩
  rw [fitsV]
  simp only [Bool.and_eq_true]
  refine ⟨fitsList_const 8 _ _ ?_ (by simpa using h), ?_⟩
  · intro x hm
    obtain ⟨b, rfl⟩ := hx x hm
    refine ⟨by simp [layoutV, hs, hv], fun j hj => ?_⟩
    have := b.isLt
    simp only [fitsV, hs, hv, Bool.false_eq_true, if_false, decide_eq_true_eq]
    omega
  · rcases hl with ⟨h1, h2⟩ | ⟨h1, h2⟩
    · rw [if_pos h1]
      have := layout_goBytes e fi hs hv d (.inl h1)
      rw [layoutV] at this
      simp only [counted, h1, if_true] at this
      rw [this, hs]
      simp only [bytesBits_length, Bool.and_eq_true, beq_iff_eq, List.all_eq_true, Bool.or_eq_true]
      refine ⟨⟨h2.symm, fun x hm => ?_⟩, .inr (by omega)⟩
      obtain ⟨b, rfl⟩ := hx x hm
      simp [layoutV, hs, hv, natBits]
    · rw [if_neg h1]
      simpa using h2.symm

@[simp] theorem cstring_length (b : Bytes) : (cstring b).length = 8 * b.length + 8 := by simp [cstring]

theorem flatMap_const {α : Type} (k : Nat) (f : α → List Bool) (l : List α) (h : ∀ x ∈ l, (f x).length = k) :
    (l.flatMap f).length = k * l.length := by
  induction l with
  | nil => rfl
  | cons x l ih =>
    rw [List.flatMap_cons, List.length_append, h x List.mem_cons_self, ih fun y hy => h y (List.mem_cons_of_mem _ hy),
      List.length_cons, Nat.mul_succ]
    omega

/-- the parts of `fits` -/
theorem fits_intro {bd : BoxDef} {ctx : Ctx} {sv : SV} {bits : List Bool} (hl : layout bd ctx sv = bits) (hk : sv.keys = bd.fields.names)
    (h8 : bits.length % 8 = 0) (hm : bits.length ≤ 8 * 2 ^ 48)
    (hf : fitsFields (env bd ctx sv) true (some bd.cfo) bd.fields sv bits.length = true)
    (hv : (!bd.fields.names.contains "FullBox" || bd.versions.isEmpty || bd.versions.contains sv.version) = true)
    (ht : bd.metaHook = false) : fits bd ctx sv = true := by
  unfold fits
  rw [hl, hf, hv, ht]
  simp only [hk, h8, hm, beq_self_eq_true, decide_true, Bool.not_false, Bool.true_or, Bool.and_self]

theorem encodes_intro {bd : BoxDef} {ctx : Ctx} {sv : SV} {bits : List Bool} (k : Nat) (hbd : bd ∈ Cat.allDefs)
    (hl : layout bd ctx sv = bits) (hk : sv.keys = bd.fields.names)
    (hn : bits.length = 8 * k) (hm : k ≤ 2 ^ 48)
    (hf : fitsFields (env bd ctx sv) true (some bd.cfo) bd.fields sv (8 * k) = true)
    (hv : (!bd.fields.names.contains "FullBox" || bd.versions.isEmpty || bd.versions.contains sv.version) = true)
    (ht : bd.metaHook = false) : Encodes bd ctx sv bits := by
  have h8 : bits.length % 8 = 0 := by omega
  have hm : bits.length ≤ 8 * 2 ^ 48 := by omega
  rw [← hn] at hf
  have hfit := fits_intro hl hk h8 hm hf hv ht
  obtain ⟨hl1, hl2⟩ := allDefs_local bd hbd
  refine ⟨bitsBytes (layout bd ctx sv), by rw [hl, bytesBits_bitsBytes _ h8], marshalBox_layout hfit, fun pre rest h => ?_⟩
  exact unmarshalBox_layout (allDefs_ok bd hbd) hl1 hl2 hfit pre rest h

theorem encodes_intro' {bd : BoxDef} {ctx : Ctx} {sv : SV} {bits : List Bool} (hbd : bd ∈ Cat.allDefs)
    (hl : layout bd ctx sv = bits) (hk : sv.keys = bd.fields.names)
    (hn : bits.length % 8 = 0) (hm : bits.length ≤ 2 ^ 48)
    (hf : fitsFields (env bd ctx sv) true (some bd.cfo) bd.fields sv bits.length = true)
    (hv : (!bd.fields.names.contains "FullBox" || bd.versions.isEmpty || bd.versions.contains sv.version) = true)
    (ht : bd.metaHook = false) : Encodes bd ctx sv bits := by
  refine encodes_intro (bits.length / 8) hbd hl hk (by omega) (by omega) ?_ hv ht
  rw [show 8 * (bits.length / 8) = bits.length by omega]
  exact hf

section Equations
variable (e : Env) (fi : Field) (left : Nat)

theorem layoutV_uint (w n : Nat) : layoutV e (.uint w) fi (.uint n) = if fi.varint then uvarint n else natBits fi.size n := by
  rw [layoutV]
theorem layoutV_int (w : Nat) (i : Int) : layoutV e (.int w) fi (.int i) = natBits fi.size (i % (2 ^ fi.size : Nat)).toNat := by
  rw [layoutV]
theorem layoutV_bool (b : Bool) : layoutV e .bool fi (.bool b) = List.replicate fi.size b := by rw [layoutV]
theorem layoutV_str (b : Bytes) : layoutV e .str fi (.str b) = if fi.boxString then bytesBits b else cstring b := by rw [layoutV]
theorem layoutV_ptr (t : Ty) (v : Val) : layoutV e (.ptr t) fi (.ptr (some v)) = layoutV e t fi v := by rw [layoutV]
theorem layoutV_struct (c : Option Cfo) (fs : Fields) (sv : SV) :
    layoutV e (.struct c fs) fi (.struct sv) = layoutFields e false c fs sv := by rw [layoutV]
theorem layoutV_arr (n : Nat) (t : Ty) (l : List Val) :
    layoutV e (.arr n t) fi (.arr l) = l.flatMap (fun x => layoutV e t fi x) := by rw [layoutV]
theorem layoutV_map {α : Type} (t : Ty) (g : α → Val) (l : List α) (hl : fi.length = lengthUnlimited ∨ fi.length = l.length) :
    layoutV e (.slice t) fi (.slice (l.map g)) = l.flatMap (fun x => layoutV e t fi (g x)) := by
  have hc : counted fi (l.map g) = l.map g := by
    unfold counted
    rcases hl with h | h
    · rw [if_pos h]
    · split
      · rfl
      · rw [h]; exact List.take_of_length_le (by simp)
  rw [layoutV]
  simp only [hc, List.flatMap_map]

theorem layoutV_mapN {α : Type} (t : Ty) (g : α → Val) (l : List α) (hl : fi.length = l.length) :
    layoutV e (.slice t) fi (.slice (l.map g)) = l.flatMap (fun x => layoutV e t fi (g x)) := layoutV_map e fi t g l (.inr hl)
theorem layoutV_mapU {α : Type} (t : Ty) (g : α → Val) (l : List α) (hl : fi.length = 4294967295) :
    layoutV e (.slice t) fi (.slice (l.map g)) = l.flatMap (fun x => layoutV e t fi (g x)) := layoutV_map e fi t g l (.inl hl)

theorem fitsV_uint (w n : Nat) : fitsV e (.uint w) fi (.uint n) left =
    if fi.varint then decide (fi.size = 0 ∧ n < 2 ^ 28 ∧ n < 2 ^ w ∧ 32 ≤ left)
      else decide (0 < fi.size ∧ fi.size ≤ left ∧ n < 2 ^ fi.size ∧ n < 2 ^ w ∧ w ≤ 64) := by rw [fitsV]
theorem fitsV_int (w : Nat) (i : Int) : fitsV e (.int w) fi (.int i) left =
    (!fi.varint && decide (0 < fi.size ∧ fi.size ≤ left ∧ fi.size ≤ w ∧ w ≤ 64 ∧
        -(2 ^ (fi.size - 1) : Nat) ≤ i ∧ i < (2 ^ (fi.size - 1) : Nat))) := by rw [fitsV]
theorem fitsV_bool (b : Bool) : fitsV e .bool fi (.bool b) left = decide (0 < fi.size ∧ fi.size ≤ 8 ∧ fi.size ≤ left) := by rw [fitsV]
theorem fitsV_str (b : Bytes) : fitsV e .str fi (.str b) left = (noNul b && !fi.strCP &&
      (if fi.boxString then left == 8 * b.length else decide (8 * (b.length + 1) ≤ left))) := by rw [fitsV]
theorem fitsV_ptr (t : Ty) (v : Val) : fitsV e (.ptr t) fi (.ptr (some v)) left = fitsV e t fi v left := by rw [fitsV]
theorem fitsV_struct (c : Option Cfo) (fs : Fields) (sv : SV) : fitsV e (.struct c fs) fi (.struct sv) left =
      (SV.keys sv == fs.names &&
      (if fi.size ≠ 0 ∧ fi.size % 8 = 0 then
        left % 8 == 0 && (layoutFields e false c fs sv).length == fi.size &&
          decide (fi.size ≤ left) && fitsFields e false c fs sv fi.size
       else fitsFields e false c fs sv left)) := by rw [fitsV]
theorem fitsV_arr (n : Nat) (t : Ty) (l : List Val) : fitsV e (.arr n t) fi (.arr l) left =
    (l.length == n && fitsList (fun x k => fitsV e t fi x k) (fun x => layoutV e t fi x) l left) := by rw [fitsV]
/-- an array of elements of a fixed size -/
theorem fitsV_arr_map {α : Type} (k : Nat) (n : Nat) (t : Ty) (g : α → Val) (l : List α) (hn : l.length = n)
    (h8 : k % 8 = 0) (hl8 : left % 8 = 0) (h : k * l.length ≤ left) (hx : ∀ x ∈ l, (layoutV e t fi (g x)).length = k ∧ ∀ j, k ≤ j → j % 8 = 0 → fitsV e t fi (g x) j = true) :
    fitsV e (.arr n t) fi (.arr (l.map g)) left = true := by
  rw [fitsV]
  simp only [Bool.and_eq_true]
  refine ⟨by simp [hn], fitsList_const8 k h8 (l.map g) left hl8 (fun x hm => ?_) (by simpa using h)⟩
  obtain ⟨y, hy, rfl⟩ := List.mem_map.1 hm
  exact hx y hy
/-- a counted list of elements of a fixed size -/
theorem fitsV_map {α : Type} (k : Nat) (t : Ty) (g : α → Val) (l : List α) (hl : fi.length ≠ lengthUnlimited) (hn : fi.length = l.length)
    (h8 : k % 8 = 0) (hl8 : left % 8 = 0) (h : k * l.length ≤ left) (hx : ∀ x ∈ l, (layoutV e t fi (g x)).length = k ∧ ∀ j, k ≤ j → j % 8 = 0 → fitsV e t fi (g x) j = true) :
    fitsV e (.slice t) fi (.slice (l.map g)) left = true := by
  rw [fitsV]
  simp only [Bool.and_eq_true]
  rw [if_neg hl]
  refine ⟨fitsList_const8 k h8 (l.map g) left hl8 (fun x hm => ?_) (by simpa using h), by simp [hn]⟩
  obtain ⟨y, hy, rfl⟩ := List.mem_map.1 hm
  exact hx y hy
/-- a list of elements of a fixed size that takes the rest -/
theorem fitsV_map_rest {α : Type} (k : Nat) (t : Ty) (g : α → Val) (l : List α) (hl : fi.length = lengthUnlimited)
    (h8 : k % 8 = 0) (h : left = k * l.length) (hk : 0 < k) (hs : fi.size = 0 ∨ fi.size = k)
    (hx : ∀ x ∈ l, (layoutV e t fi (g x)).length = k ∧ ∀ j, k ≤ j → j % 8 = 0 → fitsV e t fi (g x) j = true) :
    fitsV e (.slice t) fi (.slice (l.map g)) left = true := by
  rw [fitsV]
  simp only [Bool.and_eq_true, hl, if_true]
  refine ⟨fitsList_const8 k h8 (l.map g) left (by rw [h]; exact Nat.mod_eq_zero_of_dvd (Nat.dvd_trans (Nat.dvd_of_mod_eq_zero h8) (Nat.dvd_mul_right _ _))) (fun x hm => ?_) (by simp [h]), ⟨?_, ?_⟩, ?_⟩
  · obtain ⟨y, hy, rfl⟩ := List.mem_map.1 hm
    exact hx y hy
  · rw [beq_iff_eq, List.flatMap_map, h]
    clear h hl hs h8
    induction l with
    | nil => rfl
    | cons x l ih =>
      rw [List.flatMap_cons, List.length_append, (hx x List.mem_cons_self).1, ih fun y hy => hx y (List.mem_cons_of_mem _ hy),
        List.length_cons, Nat.mul_succ]
      omega
  · rw [List.all_eq_true]
    intro x hm
    obtain ⟨y, hy, rfl⟩ := List.mem_map.1 hm
    have := (hx y hy).1
    cases hq : layoutV e t fi (g y) with
    | nil => rw [hq] at this; simp at this; omega
    | cons _ _ => rfl
  · rcases hs with hs | hs
    · simp [hs]
    · simp [hs, h]

end Equations

/-- The three bytes of flags make up the number. -/
theorem flags_bytes (F v : Nat) (h : F < 2 ^ 24) (rest : SV) :
    SV.flags (fullBox v (F / 65536) (F / 256 % 256) (F % 256) :: rest) = F := by
  have : SV.flags (fullBox v (F / 65536) (F / 256 % 256) (F % 256) :: rest) =
      (F / 65536 * 65536) ^^^ (F / 256 % 256 * 256) ^^^ (F % 256) := by
    simp [SV.flags, SV.full, SV.get, fullBox, SV.byteArr]
  rw [this]
  have e1 : F / 65536 * 65536 = (F / 65536) * 2 ^ 16 := rfl
  have e2 : F / 256 % 256 * 256 = (F / 256 % 256) * 2 ^ 8 := rfl
  rw [e1, e2]
  have e3 : (F / 256 % 256) = (F / 2 ^ 8) % 2 ^ 8 := rfl
  have e4 : (F / 65536) = F / 2 ^ 16 := rfl
  have e5 : F % 256 = F % 2 ^ 8 := rfl
  rw [e3, e4, e5]
  refine Nat.eq_of_testBit_eq fun i => ?_
  simp only [Nat.testBit_xor, Nat.testBit_mul_two_pow, Nat.testBit_mod_two_pow, Nat.testBit_div_two_pow]
  by_cases h1 : i < 8
  · have h2 : ¬ 8 ≤ i := by omega
    have h3 : ¬ 16 ≤ i := by omega
    simp [h1, h2, h3]
  · by_cases h2 : i < 16
    · have h3 : ¬ 16 ≤ i := by omega
      have h4 : 8 ≤ i := by omega
      have h5 : i - 8 < 8 := by omega
      have h6 : i - 8 + 8 = i := by omega
      simp [h1, h3, h4, h5, h6]
    · have h3 : 16 ≤ i := by omega
      have h4 : 8 ≤ i := by omega
      have h5 : ¬ i - 8 < 8 := by omega
      have h6 : i - 16 + 16 = i := by omega
      simp [h1, h3, h4, h5, h6]

/-- compute a layout -/
macro "layout_tac" "[" ds:Lean.Parser.Tactic.simpLemma,* "]" : tactic => `(tactic|
  simp [layout, Fields.ofList, layoutFields, layoutV_uint, layoutV_int, layoutV_bool, layoutV_str, layoutV_ptr, layoutV_struct, layoutV_arr,
    layoutV_mapN, layoutV_mapU, env, present, instField, before, silent, SV.get, fullBox,
    anyVersion, SV.uint, fullBoxTy, Cfo.base, SV.str, lengthUnlimited, SV.byteArr, $ds,*])

/-- compute `fitsFields` -/
macro "fits_tac" "[" ds:Lean.Parser.Tactic.simpLemma,* "]" : tactic => `(tactic|
  simp [Fields.ofList, layoutFields, layoutV_uint, layoutV_int, layoutV_bool, layoutV_str, layoutV_ptr, layoutV_struct, layoutV_arr,
    layoutV_mapN, layoutV_mapU, env, present, instField, before, silent, SV.get, fullBox,
    anyVersion, SV.uint, fullBoxTy, Cfo.base, SV.str, lengthUnlimited, SV.byteArr, fitsFields,
    fitsV_uint, fitsV_int, fitsV_bool, fitsV_str, fitsV_ptr, fitsV_struct, fitsV_arr, fitsList,
    isText, SV.keys, Fields.names, isZero, $ds,*])

/-- the arithmetic and the byte strings that `fits_tac` leaves -/
macro "fits_close" : tactic => `(tactic|
  ((repeat' apply And.intro) <;> first
    | omega
    | (refine fits_goBytes _ _ rfl rfl _ _ (by omega) (.inl ⟨rfl, by omega⟩))
    | (refine fits_goBytes _ _ rfl rfl _ _ (by omega) (.inr ⟨by simp [lengthUnlimited]; omega, rfl⟩))
    | assumption
    | (right; omega)))

@[simp] theorem sum_const {α : Type} (l : List α) (k : Nat) : (l.map fun _ => k).sum = k * l.length := by
  induction l with
  | nil => rfl
  | cons x l ih => rw [List.map_cons, List.sum_cons, ih, List.length_cons, Nat.mul_succ]; omega

/-- `Encodes` of a box with a list of elements of `w` bits each that satisfy `hr` -/
macro "iso_table" k:term "," w:term "," hr:term "," "[" ds:Lean.Parser.Tactic.simpLemma,* "]" : tactic => `(tactic|
  (refine encodes_intro $k (by simp [Cat.allDefs]) ?_ rfl ?_ ?_ ?_ rfl rfl
   · layout_tac [SV.flags, SV.version, SV.full, verFlags, ints, sint, List.flatMap_map, $ds,*]
   · simp [verFlags, ints, sint, List.length_flatMap, $ds,*] <;> omega
   · omega
   · fits_tac [SV.flags, SV.version, SV.full, List.length_flatMap, $ds,*]
     ((repeat' apply And.intro) <;> first
       | omega
       | (refine fits_goBytes _ _ rfl rfl _ _ (by omega) (.inl ⟨rfl, by omega⟩))
       | (refine fits_goBytes _ _ rfl rfl _ _ (by omega) (.inr ⟨by simp [lengthUnlimited]; omega, rfl⟩))
       | assumption
       | (refine fitsV_map _ _ _ $w _ _ _ (by simp [lengthUnlimited]; omega) rfl (by decide) (by omega) (by omega) (fun x hx => ⟨by layout_tac [SV.flags, SV.version, SV.full, $ds,*], fun j hj hj8 => ?_⟩)
          have hr' := $hr x hx
          try simp only [IsInt, Nat.reducePow, Nat.reduceSub] at hr'
          fits_tac [SV.flags, SV.version, SV.full, $ds,*]
          (repeat' apply And.intro) <;> first | omega | assumption)
       | (refine fitsV_map_rest _ _ _ $w _ _ _ rfl (by decide) (by omega) (by decide) (by simp) (fun x hx => ⟨by layout_tac [SV.flags, SV.version, SV.full, $ds,*], fun j hj hj8 => ?_⟩)
          have hr' := $hr x hx
          try simp only [IsInt, Nat.reducePow, Nat.reduceSub] at hr'
          fits_tac [SV.flags, SV.version, SV.full, $ds,*]
          (repeat' apply And.intro) <;> first | omega | assumption)
       | (right; omega))))

/-- `Encodes` of a box without lists of structs, with a payload of `k` bytes -/
macro "iso_box" k:term "," "[" ds:Lean.Parser.Tactic.simpLemma,* "]" : tactic => `(tactic|
  (refine encodes_intro $k (by simp [Cat.allDefs]) ?_ rfl ?_ ?_ ?_ rfl rfl
   · layout_tac [SV.flags, SV.version, SV.full, verFlags, ints, sint, $ds,*]
   · simp [verFlags, ints, sint] <;> omega
   · omega
   · fits_tac [SV.flags, SV.version, SV.full, $ds,*]
     try fits_close))

end Mp4
