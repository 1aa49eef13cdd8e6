import Verif.Spec.Volume
import Verif.Lemmas.SafeUnmarshal
import Verif.Lemmas.MarshalErr

/-!
# Every list element and string byte of a decoded box has been paid for with eight bits (C66)
-/

namespace Mp4

open Spec

/-- is the field there in every version and with all flags? -/
def Field.steady (f : Field) : Bool :=
  f.optFlag == 0 && f.nOptFlag == 0 && !f.optDyn && f.version == anyVersion && f.nVersion == anyVersion

/-- a lower bound for the size of a field, if `z` has lower bounds for sizes decided by methods -/
def Field.leastSize (z : String → Nat) (f : Field) : Nat := if f.sizeDyn then z f.name else f.size

mutual
/-- is there neither a list nor a string in values of this type? -/
def Ty.flat : Ty → Bool
  | .ptr t => t.flat
  | .struct _ fs => fs.flat
  | .arr _ t => t.flat
  | .slice _ => false
  | .str => false
  | .uint _ => true
  | .int _ => true
  | .bool => true
/-- the same for the fields of a struct -/
def Fields.flat : Fields → Bool
  | .nil => true
  | .cons _ t fs => t.flat && fs.flat
end

mutual
/-- a lower bound for the number of bits of a value, not counting what is in its lists -/
def Ty.least (z : String → Nat) : Ty → Field → Nat
  | .ptr t, f => t.least z f
  | .struct c fs, f =>
    if !f.sizeDyn && f.size != 0 && f.size % 8 == 0 && fs.flat then f.size
    else fs.least (if c.isSome then fun _ => 0 else z)
  | .arr _ _, _ => 0
  | .slice _, _ => 0
  | .str, _ => 0
  | .uint _, f => if f.varint then 8 else f.leastSize z
  | .int _, f => f.leastSize z
  | .bool, f => f.leastSize z
/-- the same for the fields of a struct -/
def Fields.least (z : String → Nat) : Fields → Nat
  | .nil => 0
  | .cons f t fs => (if f.steady then t.least z f else 0) + fs.least z
end

mutual
/-- has every element of every list at least eight bits of its own? -/
def Ty.paid (z : String → Nat) : Ty → Field → Bool
  | .ptr t, f => t.paid z f
  | .struct c fs, _ => fs.paid (if c.isSome then fun _ => 0 else z)
  | .arr _ t, f => t.paid z f
  | .slice t, f => decide (8 ≤ t.least z f) && t.paid z f
  | .str, _ => true
  | .uint _, _ => true
  | .int _, _ => true
  | .bool, _ => true
/-- the same for the fields of a struct -/
def Fields.paid (z : String → Nat) : Fields → Bool
  | .nil => true
  | .cons f t fs => t.paid z f && fs.paid z
end

/-- the only size decided by a method that matters: `GetFieldSize` of `tfra`, box_types_iso14496_12.go:2119-2146 -/
def leastDyn (bd : BoxDef) : String → Nat := fun n => if bd.goName == "Tfra" && n == "TrafNumber" then 8 else 0

theorem allDefs_paid : ∀ bd ∈ Cat.allDefs, bd.goName ≠ "Trun" → bd.fields.paid (leastDyn bd) = true := by
  have h : Cat.allDefs.all (fun bd => bd.goName == "Trun" || bd.fields.paid (leastDyn bd)) = true := by decide +kernel
  intro bd hbd h1
  have := List.all_eq_true.mp h bd hbd
  simpa [h1] using this

/-! ## Volume -/

theorem vol_set_le (n : String) (v : Val) : ∀ sv : SV, volFields (sv.set n v) ≤ volFields sv + vol v
  | [] => by simp [SV.set, volFields]
  | (m, x) :: rest => by
    have := vol_set_le n v rest
    unfold SV.set
    split
    · simp only [volFields]; omega
    · simp only [volFields]; omega

theorem vol_set {n : String} (v : Val) {x : Val} : ∀ {sv : SV}, sv.get n = some x →
    volFields (sv.set n v) + vol x = volFields sv + vol v
  | [], h => by cases h
  | (m, y) :: rest, h => by
    unfold SV.get at h
    unfold SV.set
    split at h
    · next e => cases h; rw [if_pos e]; simp only [volFields]; omega
    · next e =>
      rw [if_neg e]
      have := vol_set v h
      simp only [volFields]; omega

theorem volList_append (a : List Val) : ∀ b, volList (b ++ a) = volList b + volList a
  | [] => by simp [volList]
  | x :: b => by simp only [List.cons_append, volList, volList_append a b]; omega

theorem volList_zero : ∀ {l : List Val}, (∀ x ∈ l, vol x = 0) → volList l = 0
  | [], _ => rfl
  | x :: l, h => by
    rw [volList, h x List.mem_cons_self, volList_zero fun y hy => h y (List.mem_cons_of_mem _ hy)]

mutual
theorem vol_zero : ∀ t : Ty, vol t.zero = 0
  | .uint _ => rfl
  | .int _ => rfl
  | .bool => rfl
  | .str => rfl
  | .ptr _ => rfl
  | .arr n t => by
    rw [Ty.zero, vol]
    exact volList_zero fun x hx => by rw [(List.mem_replicate.1 hx).2]; exact vol_zero t
  | .slice _ => rfl
  | .struct _ fs => by rw [Ty.zero, vol]; exact volFields_zero fs
theorem volFields_zero : ∀ fs : Fields, volFields fs.zero = 0
  | .nil => rfl
  | .cons f t fs => by rw [Fields.zero, volFields, vol_zero t, volFields_zero fs]
end

/-! ## Loops -/

theorem liftR_rbits {α : Type} {m : RM α} {s s' : USt} {a : α} (h : liftR m s = (.ok a, s')) :
    s'.rbits = s.rbits ∧ m s.r = (.ok a, s'.r) := by
  unfold liftR at h
  cases hm : m s.r with
  | mk o r =>
    rw [hm] at h
    simp only [Prod.mk.injEq] at h
    obtain ⟨rfl, rfl⟩ := h
    exact ⟨rfl, rfl⟩

theorem addR_rbits {n : Nat} {s s' : USt} {a : Unit} (h : addR n s = (.ok a, s')) : s'.rbits = s.rbits + n := by
  cases h; rfl

theorem readBitsA_rbits {d : Bytes} {n : Nat} {s s' : USt} {a : Bytes} (h : readBitsA d n s = (.ok a, s')) :
    s'.rbits = s.rbits := by
  unfold readBitsA at h
  obtain ⟨_, s1, h1, h⟩ := bind_ok_inv h
  have e := (liftR_rbits h).1
  unfold alloc at h1
  split at h1
  · cases h1; exact e
  · cases h1

theorem uvarint_rbits {d : Bytes} : ∀ {fuel val : Nat} {s s' : USt} {a : Nat}, readUvarint d fuel val s = (.ok a, s') →
    s.rbits + 8 ≤ s'.rbits
  | 0, _, _, _, _, h => by cases h
  | fuel + 1, val, s, s', a, h => by
    unfold readUvarint at h
    obtain ⟨o, s1, h1, h⟩ := bind_ok_inv h
    obtain ⟨_, s2, h2, h⟩ := bind_ok_inv h
    have e1 := (liftR_rbits h1).1
    have e2 := addR_rbits h2
    simp only at h
    split at h
    · cases h; omega
    · have := uvarint_rbits h; omega

theorem stringC_rbits {d : Bytes} {size8 : Nat} : ∀ {fuel : Nat} {s s' : USt} {a : Bytes}, stringCLoop d size8 fuel s = (.ok a, s') →
    s.rbits + 8 * a.length ≤ s'.rbits
  | 0, _, _, _, h => by cases h
  | fuel + 1, s, s', a, h => by
    unfold stringCLoop at h
    rw [M.bind_ok (M.get_run _)] at h
    split at h
    · cases h; simp
    · obtain ⟨c, s1, h1, h⟩ := bind_ok_inv h
      obtain ⟨_, s2, h2, h⟩ := bind_ok_inv h
      have e1 := (liftR_rbits h1).1
      have e2 := addR_rbits h2
      simp only at h
      split at h
      · cases h; simp only [List.length_nil]; omega
      · obtain ⟨rest, s3, h3, h⟩ := bind_ok_inv h
        have e3 := stringC_rbits h3
        cases h
        simp only [List.length_cons]; omega

theorem unmarshalStringC_vol {d : Bytes} {size8 : Nat} {s s' : USt} {v : Val} (h : unmarshalStringC d size8 s = (.ok v, s')) :
    s.rbits + 8 * vol v ≤ s'.rbits := by
  unfold unmarshalStringC at h
  obtain ⟨b, s1, h1, h⟩ := bind_ok_inv h
  cases h
  exact stringC_rbits h1

theorem tryReadPString_vol {d : Bytes} {size8 : Nat} {s s' : USt} {o : Option Val} (h : tryReadPString d size8 s = (.ok o, s')) :
    s.rbits + 8 * vol (.ptr o) ≤ s'.rbits := by
  unfold tryReadPString at h
  rw [M.bind_ok (M.get_run _)] at h
  simp only at h
  split at h
  · cases h; simp [vol]
  · obtain ⟨off, s1, h1, h⟩ := bind_ok_inv h
    obtain ⟨b0, s2, h2, h⟩ := bind_ok_inv h
    have e1 := (liftR_rbits h1).1
    have e2 := (liftR_rbits h2).1
    split at h
    · obtain ⟨_, s3, h3, h⟩ := bind_ok_inv h
      have e3 := (liftR_rbits h3).1
      cases h
      simp only [vol]; omega
    · obtain ⟨buf, s3, h3, h⟩ := bind_ok_inv h
      obtain ⟨_, s4, h4, h⟩ := bind_ok_inv h
      have e3 := (liftR_rbits h3).1
      have e4 := addR_rbits h4
      cases h
      simp only [vol]; omega

theorem unmarshalString_vol {d : Bytes} {size8 : Nat} {fi : Field} {s s' : USt} {v : Val} (h : unmarshalString d size8 fi s = (.ok v, s')) :
    s.rbits + 8 * vol v ≤ s'.rbits := by
  unfold unmarshalString at h
  split at h
  · obtain ⟨o, s1, h1, h⟩ := bind_ok_inv h
    have e1 := tryReadPString_vol h1
    cases o with
    | some w => cases h; simpa [vol] using e1
    | none =>
      have := unmarshalStringC_vol h
      simp only [vol] at e1
      omega
  · exact unmarshalStringC_vol h

theorem arrLoop_vol {f : Val → UM Val} (hf : ∀ x v s s', f x s = (.ok v, s') → s.rbits + 8 * vol v ≤ s'.rbits + 8 * vol x) :
    ∀ {l l' : List Val} {s s' : USt}, arrLoop f l s = (.ok l', s') → s.rbits + 8 * volList l' ≤ s'.rbits + 8 * volList l
  | [], _, _, _, h => by cases h; simp
  | x :: l, l', s, s', h => by
    unfold arrLoop at h
    obtain ⟨v, s1, h1, h⟩ := bind_ok_inv h
    obtain ⟨vs, s2, h2, h⟩ := bind_ok_inv h
    cases h
    have e1 := hf _ _ _ _ h1
    have e2 := arrLoop_vol hf h2
    simp only [volList]; omega

theorem sliceElem_ok {size8 : Nat} {f : UM Val} {s s' : USt} {v : Val} (h : sliceElem size8 f s = (.ok v, s')) : f s = (.ok v, s') := by
  unfold sliceElem at h
  obtain ⟨w, s1, h1, h⟩ := bind_ok_inv h
  rw [M.bind_ok (M.get_run _)] at h
  split at h
  · cases h
  · cases h; exact h1

theorem countLoop_vol {size8 : Nat} {f : UM Val} (hf : ∀ v s s', f s = (.ok v, s') → s.rbits + 8 + 8 * vol v ≤ s'.rbits) :
    ∀ {n : Nat} {l : List Val} {s s' : USt}, countLoop size8 f n s = (.ok l, s') → s.rbits + 8 * vol (.slice l) ≤ s'.rbits
  | 0, _, _, _, h => by cases h; simp [vol, volList]
  | n + 1, l, s, s', h => by
    unfold countLoop at h
    obtain ⟨v, s1, h1, h⟩ := bind_ok_inv h
    obtain ⟨vs, s2, h2, h⟩ := bind_ok_inv h
    cases h
    have e1 := hf _ _ _ (sliceElem_ok h1)
    have e2 := countLoop_vol hf h2
    simp only [vol, volList, List.length_cons] at e2 ⊢; omega

theorem greedyLoop_vol {size8 : Nat} {f : UM Val} (hf : ∀ v s s', f s = (.ok v, s') → s.rbits + 8 + 8 * vol v ≤ s'.rbits) :
    ∀ {n : Nat} {l : List Val} {s s' : USt}, greedyLoop size8 f n s = (.ok l, s') → s.rbits + 8 * vol (.slice l) ≤ s'.rbits
  | 0, _, _, _, h => by cases h
  | n + 1, l, s, s', h => by
    unfold greedyLoop at h
    rw [M.bind_ok (M.get_run _)] at h
    split at h
    · cases h; simp [vol, volList]
    · obtain ⟨v, s1, h1, h⟩ := bind_ok_inv h
      obtain ⟨vs, s2, h2, h⟩ := bind_ok_inv h
      cases h
      have e1 := hf _ _ _ (sliceElem_ok h1)
      have e2 := greedyLoop_vol hf h2
      simp only [vol, volList, List.length_cons] at e2 ⊢; omega

theorem copyN_length {d : Bytes} {n : Nat} {s s' : RSt} {b : Bytes} (h : copyN d n s = (.ok b, s')) : b.length ≤ n := by
  unfold copyN at h
  split at h
  · cases h; simp
  · split at h
    · cases h
    · simp only at h
      split at h
      · cases h
      · cases h; exact List.length_take_le _ _

theorem volList_bytes (b : Bytes) : volList (b.map fun b => Val.uint b.toNat) = 0 :=
  volList_zero fun x hx => by obtain ⟨y, -, rfl⟩ := List.mem_map.1 hx; rfl

theorem byteSlice_vol {d : Bytes} {n : Nat} {s s' : USt} {v : Val} (h : byteSlice d n s = (.ok v, s')) :
    s.rbits + 8 * vol v ≤ s'.rbits := by
  unfold byteSlice at h
  obtain ⟨ok, s1, h1, h⟩ := bind_ok_inv h
  have e1 := (liftR_rbits h1).1
  split at h
  · cases h
  · obtain ⟨_, s2, h2, h⟩ := bind_ok_inv h
    obtain ⟨buf, s3, h3, h⟩ := bind_ok_inv h
    obtain ⟨_, s4, h4, h⟩ := bind_ok_inv h
    have e2 : s2 = s1 := by
      unfold alloc at h2
      split at h2
      · cases h2; rfl
      · cases h2
    obtain ⟨e3, e3'⟩ := liftR_rbits h3
    have e4 := addR_rbits h4
    have e5 := copyN_length e3'
    cases h
    subst e2
    simp only [vol, volList_bytes, List.length_map]; omega

theorem unmarshalSlice_vol {d : Bytes} {size8 : Nat} {b : Bool} {fi : Field} {f : UM Val}
    (hf : ∀ v s s', f s = (.ok v, s') → s.rbits + 8 + 8 * vol v ≤ s'.rbits) {s s' : USt} {v : Val}
    (h : unmarshalSlice d size8 b fi f s = (.ok v, s')) : s.rbits + 8 * vol v ≤ s'.rbits := by
  unfold unmarshalSlice at h
  rw [M.bind_ok (M.get_run _)] at h
  simp only at h
  split at h
  · cases h
  · split at h
    · exact byteSlice_vol h
    · split at h
      · obtain ⟨l, s1, h1, h⟩ := bind_ok_inv h
        cases h
        exact greedyLoop_vol hf h1
      · obtain ⟨l, s1, h1, h⟩ := bind_ok_inv h
        cases h
        exact countLoop_vol hf h1

theorem structInternal_rbits {α : Type} {size8 : Nat} {fi : Field} {m : Nat → UM α} {s s' : USt} {a : α} {A B : Nat}
    (hm : ∀ k s s', m k s = (.ok a, s') → s.rbits + A ≤ s'.rbits + B)
    (h : structInternal size8 fi m s = (.ok a, s')) : s.rbits + A ≤ s'.rbits + B ∧
      (fi.size ≠ 0 → fi.size % 8 = 0 → s'.rbits = s.rbits + fi.size) := by
  unfold structInternal at h
  split at h
  · next hc =>
    unfold sizedStruct at h
    cases hx : m (fi.size % U64) { s with rbits := 0 } with
    | mk o s1 =>
      rw [hx] at h
      cases o with
      | ok b =>
        simp only at h
        split at h
        · cases h
        · next he =>
          cases h
          have k2 := hm _ _ _ hx
          have he : s1.rbits = fi.size := by
            rcases Nat.decEq s1.rbits fi.size with h | h
            · exact absurd h he
            · exact h
          simp only at k2 ⊢
          exact ⟨by omega, fun _ _ => by omega⟩
      | err e => cases h
      | panic => cases h
      | hang => cases h
  · next hc =>
    exact ⟨hm _ _ _ h, fun h1 h2 => absurd ⟨h1, h2⟩ hc⟩

/-! ## Values without lists -/

theorem arrLoop_flat {f : Val → UM Val} (hf : ∀ x v s s', f x s = (.ok v, s') → vol v ≤ vol x) :
    ∀ {l l' : List Val} {s s' : USt}, arrLoop f l s = (.ok l', s') → volList l' ≤ volList l
  | [], _, _, _, h => by cases h; simp
  | x :: l, l', s, s', h => by
    unfold arrLoop at h
    obtain ⟨v, s1, h1, h⟩ := bind_ok_inv h
    obtain ⟨vs, s2, h2, h⟩ := bind_ok_inv h
    cases h
    have e1 := hf _ _ _ _ h1
    have e2 := arrLoop_flat hf h2
    simp only [volList]; omega

theorem structInternal_any {α : Type} {size8 : Nat} {fi : Field} {m : Nat → UM α} {s s' : USt} {a : α} {P : α → Prop}
    (hm : ∀ k s s', m k s = (.ok a, s') → P a) (h : structInternal size8 fi m s = (.ok a, s')) : P a := by
  unfold structInternal at h
  split at h
  · unfold sizedStruct at h
    cases hx : m (fi.size % U64) { s with rbits := 0 } with
    | mk o s1 =>
      rw [hx] at h
      cases o with
      | ok b =>
        simp only at h
        split at h
        · cases h
        · cases h; exact hm _ _ _ hx
      | err e => cases h
      | panic => cases h
      | hang => cases h
  · exact hm _ _ _ h

mutual
theorem flat_V : ∀ (t : Ty) {e : UEnv} {fi : Field} {cur v : Val} {s s' : USt}, t.flat = true →
    unmarshalV e t fi cur s = (.ok v, s') → vol v ≤ vol cur
  | .ptr t, e, fi, cur, v, s, s', hp, h => by
    unfold unmarshalV at h
    obtain ⟨w, s1, h1, h⟩ := bind_ok_inv h
    cases h
    have := flat_V t (by simpa [Ty.flat] using hp) h1
    rw [vol_zero] at this
    simp only [vol]; omega
  | .struct c fs, e, fi, cur, v, s, s', hp, h => by
    unfold unmarshalV at h
    cases cur with
    | struct sv =>
      refine structInternal_any (P := fun v => vol v ≤ vol (.struct sv)) (fun k s s' h => ?_) h
      obtain ⟨sv', s1, h1, h⟩ := bind_ok_inv h
      cases h
      exact flat_fields fs (by simpa [Ty.flat] using hp) h1
    | _ => cases h
  | .arr n t, e, fi, cur, v, s, s', hp, h => by
    unfold unmarshalV at h
    cases cur with
    | arr l =>
      obtain ⟨l', s1, h1, h⟩ := bind_ok_inv h
      cases h
      exact arrLoop_flat (fun x v s s' h => flat_V t (by simpa [Ty.flat] using hp) h) h1
    | _ => cases h
  | .slice t, _, _, _, _, _, _, hp, h => by cases hp
  | .str, _, _, _, _, _, _, hp, h => by cases hp
  | .int w, e, fi, cur, v, s, s', hp, h => by
    unfold unmarshalV unmarshalInt at h
    split at h
    · cases h
    · split at h
      · cases h
      · obtain ⟨data, s1, h1, h⟩ := bind_ok_inv h
        obtain ⟨_, s2, h2, h⟩ := bind_ok_inv h
        cases h
        simp [vol]
  | .uint w, e, fi, cur, v, s, s', hp, h => by
    unfold unmarshalV unmarshalUint at h
    split at h
    · obtain ⟨k, s1, h1, h⟩ := bind_ok_inv h
      cases h
      simp [vol]
    · split at h
      · cases h
      · obtain ⟨data, s1, h1, h⟩ := bind_ok_inv h
        obtain ⟨_, s2, h2, h⟩ := bind_ok_inv h
        cases h
        simp [vol]
  | .bool, e, fi, cur, v, s, s', hp, h => by
    unfold unmarshalV unmarshalBool at h
    split at h
    · cases h
    · obtain ⟨data, s1, h1, h⟩ := bind_ok_inv h
      obtain ⟨_, s2, h2, h⟩ := bind_ok_inv h
      cases h
      simp [vol]
theorem flat_fields : ∀ (fs : Fields) {e : UEnv} {c : Option Cfo} {cur sv : SV} {s s' : USt}, fs.flat = true →
    unmarshalFields e false c fs cur s = (.ok sv, s') → volFields sv ≤ volFields cur
  | .nil, e, c, cur, sv, s, s', _, h => by unfold unmarshalFields at h; cases h; exact Nat.le_refl _
  | .cons f t fs, e, c, cur, sv, s, s', hp, h => by
    have hp : t.flat = true ∧ fs.flat = true := by simpa [Fields.flat] using hp
    unfold unmarshalFields at h
    simp only [Bool.false_eq_true, if_false] at h
    generalize (if c.isSome = true then cur else e.root) = csv at h
    generalize hr : resolve (c.getD e.cfo) e.ctx csv f = r at h
    cases r with
    | none => cases h
    | some fi =>
      simp only at h
      split at h
      · exact flat_fields fs hp.2 h
      · rw [M.bind_ok (M.get_run _)] at h
        obtain ⟨x, s1, h1, h⟩ := bind_ok_inv h
        cases h1
        obtain ⟨_, s2, h2, h⟩ := bind_ok_inv h
        simp only [Bool.false_eq_true, if_false] at h
        generalize hx : SV.get cur f.name = o at h
        cases o with
        | none => cases h
        | some x =>
          obtain ⟨w, s3, h3, h⟩ := bind_ok_inv h
          simp only [false_and, if_false] at h
          have k1 := flat_V t hp.1 h3
          have k2 := flat_fields fs hp.2 h
          have := vol_set w hx
          omega
end

/-! ## All values -/

/-- `z` has lower bounds for the sizes decided by these methods -/
def LeastDyn (z : String → Nat) (c : Cfo) : Prop := ∀ n ctx sv k, c.size n ctx sv = some k → z n ≤ k

theorem leastDyn_zero (c : Cfo) : LeastDyn (fun _ => 0) c := fun _ _ _ _ _ => Nat.zero_le _

theorem leastDyn_sound {bd : BoxDef} (hbd : bd ∈ Cat.allDefs) : LeastDyn (leastDyn bd) bd.cfo := by
  intro n ctx sv k h
  unfold leastDyn
  split
  · next hc =>
    obtain ⟨h1, h2⟩ := Bool.and_eq_true_iff.1 hc
    have h1 : bd.goName = "Tfra" := by simpa using h1
    have h2 : n = "TrafNumber" := by simpa using h2
    subst h2
    rw [bd_tfra _ hbd h1] at h
    have h : some ((sv.uint "LengthSizeOfTrafNum" + 1) * 8) = some k := h
    cases h
    omega
  · exact Nat.zero_le _

/-- the field as it is here, in relation to its declaration -/
structure Inst (z : String → Nat) (f fi : Field) : Prop where
  varint : fi.varint = f.varint
  size : f.leastSize z ≤ fi.size
  fixed : f.sizeDyn = false → fi.size = f.size

theorem inst_resolve {z : String → Nat} {c : Cfo} (hz : LeastDyn z c) {ctx : Ctx} {csv : SV} {f fi : Field}
    (h : resolve c ctx csv f = some fi) : Inst z f fi := by
  obtain ⟨size, length, rfl, h1, h2, -, -⟩ := resolve_eta h
  refine ⟨rfl, ?_, fun hs => h1 hs⟩
  unfold Field.leastSize
  cases hs : f.sizeDyn with
  | false => rw [h1 hs]; simp
  | true => exact hz _ _ _ _ (h2 hs)

theorem steady_target {f fi : Field} {c c' : Cfo} {ctx : Ctx} {csv root csv' : SV} (hr : resolve c' ctx csv f = some fi)
    (h : f.steady = true) : isTarget c ctx root csv' fi = true := by
  obtain ⟨size, length, rfl, -⟩ := resolve_eta hr
  simp only [Field.steady, Bool.and_eq_true, beq_iff_eq, Bool.not_eq_true'] at h
  obtain ⟨⟨⟨⟨h1, h2⟩, h3⟩, h4⟩, h5⟩ := h
  unfold isTarget
  simp [h1, h2, h3, h4, h5]

theorem pay_int {d : Bytes} {w : Nat} {fi : Field} {s s' : USt} {v : Val} (h : unmarshalInt d w fi s = (.ok v, s')) :
    s'.rbits = s.rbits + fi.size ∧ vol v = 0 := by
  unfold unmarshalInt at h
  split at h
  · cases h
  · split at h
    · cases h
    · obtain ⟨data, s1, h1, h⟩ := bind_ok_inv h
      obtain ⟨_, s2, h2, h⟩ := bind_ok_inv h
      have e1 := readBitsA_rbits h1
      have e2 := addR_rbits h2
      cases h
      exact ⟨by omega, rfl⟩

theorem pay_uint {d : Bytes} {w : Nat} {fi : Field} {s s' : USt} {v : Val} (h : unmarshalUint d w fi s = (.ok v, s')) :
    s.rbits + (if fi.varint then 8 else fi.size) ≤ s'.rbits ∧ vol v = 0 := by
  unfold unmarshalUint at h
  split at h
  · next hv =>
    obtain ⟨k, s1, h1, h⟩ := bind_ok_inv h
    have := uvarint_rbits h1
    cases h
    exact ⟨by rw [if_pos hv]; omega, rfl⟩
  · next hv =>
    split at h
    · cases h
    · obtain ⟨data, s1, h1, h⟩ := bind_ok_inv h
      obtain ⟨_, s2, h2, h⟩ := bind_ok_inv h
      have e1 := readBitsA_rbits h1
      have e2 := addR_rbits h2
      cases h
      exact ⟨by rw [if_neg hv]; omega, rfl⟩

theorem pay_bool {d : Bytes} {fi : Field} {s s' : USt} {v : Val} (h : unmarshalBool d fi s = (.ok v, s')) :
    s'.rbits = s.rbits + fi.size ∧ vol v = 0 := by
  unfold unmarshalBool at h
  split at h
  · cases h
  · obtain ⟨data, s1, h1, h⟩ := bind_ok_inv h
    obtain ⟨_, s2, h2, h⟩ := bind_ok_inv h
    have e1 := readBitsA_rbits h1
    have e2 := addR_rbits h2
    cases h
    exact ⟨by omega, rfl⟩

mutual
theorem pay_V : ∀ (t : Ty) {z : String → Nat} {e : UEnv} {f fi : Field} {cur v : Val} {s s' : USt}, LeastDyn z e.cfo → Inst z f fi →
    t.paid z f = true → unmarshalV e t fi cur s = (.ok v, s') → s.rbits + t.least z f + 8 * vol v ≤ s'.rbits + 8 * vol cur
  | .ptr t, z, e, f, fi, cur, v, s, s', hz, hi, hp, h => by
    unfold unmarshalV at h
    obtain ⟨w, s1, h1, h⟩ := bind_ok_inv h
    cases h
    have := pay_V t hz hi (by simpa [Ty.paid] using hp) h1
    rw [vol_zero] at this
    simp only [vol, Ty.least]; omega
  | .struct c fs, z, e, f, fi, cur, v, s, s', hz, hi, hp, h => by
    have hp : fs.paid (if c.isSome then fun _ => 0 else z) = true := by simpa [Ty.paid] using hp
    have h0 := h
    unfold unmarshalV at h
    cases cur with
    | struct sv =>
      have hdyn : LeastDyn (if c.isSome then fun _ => 0 else z) e.cfo := by
        split
        · exact leastDyn_zero _
        · exact hz
      have hdyn' : LeastDyn (if c.isSome then fun _ => 0 else z) (c.getD e.cfo) := by
        cases c with
        | some c => exact leastDyn_zero _
        | none => exact hz
      generalize hzz : (if c.isSome then fun _ => 0 else z) = zz at hp hdyn hdyn'
      obtain ⟨k2, k3⟩ := structInternal_rbits (A := fs.least zz + 8 * vol v) (B := 8 * vol (.struct sv)) (fun k s s' h => by
        obtain ⟨sv', s1, h1, h⟩ := bind_ok_inv h
        cases h
        have := pay_fields fs (e := { e with size8 := k }) hdyn hdyn' hp h1
        simp only [vol]
        omega) h
      simp only [Ty.least, hzz]
      split
      · next hc =>
        simp only [Bool.and_eq_true, Bool.not_eq_true', bne_iff_ne, beq_iff_eq] at hc
        obtain ⟨⟨⟨c1, c2⟩, c3⟩, c4⟩ := hc
        have := flat_V (.struct c fs) (by simpa [Ty.flat] using c4) h0
        have hs := hi.fixed c1
        have := k3 (by omega) (by omega)
        omega
      · omega
    | _ => cases h
  | .arr n t, z, e, f, fi, cur, v, s, s', hz, hi, hp, h => by
    unfold unmarshalV at h
    cases cur with
    | arr l =>
      obtain ⟨l', s1, h1, h⟩ := bind_ok_inv h
      cases h
      have := arrLoop_vol (fun x v s s' h => by
        have := pay_V t hz hi (by simpa [Ty.paid] using hp) h
        omega) h1
      simp only [vol, Ty.least]; omega
    | _ => cases h
  | .slice t, z, e, f, fi, cur, v, s, s', hz, hi, hp, h => by
    unfold unmarshalV at h
    have hp : 8 ≤ t.least z f ∧ t.paid z f = true := by simpa [Ty.paid] using hp
    have := unmarshalSlice_vol (fun v s s' h => by
      have := pay_V t hz hi hp.2 h
      rw [vol_zero] at this
      omega) h
    simp only [Ty.least]; omega
  | .str, z, e, f, fi, cur, v, s, s', hz, hi, hp, h => by
    unfold unmarshalV at h
    have := unmarshalString_vol h
    simp only [Ty.least]; omega
  | .int w, z, e, f, fi, cur, v, s, s', hz, hi, hp, h => by
    unfold unmarshalV at h
    obtain ⟨k1, k2⟩ := pay_int h
    have := hi.size
    simp only [Ty.least]; omega
  | .uint w, z, e, f, fi, cur, v, s, s', hz, hi, hp, h => by
    unfold unmarshalV at h
    obtain ⟨k1, k2⟩ := pay_uint h
    have := hi.size
    rw [hi.varint] at k1
    simp only [Ty.least]
    split at k1
    · next hv => rw [if_pos hv]; omega
    · next hv => rw [if_neg hv]; omega
  | .bool, z, e, f, fi, cur, v, s, s', hz, hi, hp, h => by
    unfold unmarshalV at h
    obtain ⟨k1, k2⟩ := pay_bool h
    have := hi.size
    simp only [Ty.least]; omega
theorem pay_fields : ∀ (fs : Fields) {z : String → Nat} {e : UEnv} {c : Option Cfo} {cur sv : SV} {s s' : USt}, LeastDyn z e.cfo →
    LeastDyn z (c.getD e.cfo) → fs.paid z = true → unmarshalFields e false c fs cur s = (.ok sv, s') →
    s.rbits + fs.least z + 8 * volFields sv ≤ s'.rbits + 8 * volFields cur
  | .nil, z, e, c, cur, sv, s, s', _, _, _, h => by
    unfold unmarshalFields at h; cases h
    simp only [Fields.least]; omega
  | .cons f t fs, z, e, c, cur, sv, s, s', hz, hz', hp, h => by
    have hp : t.paid z f = true ∧ fs.paid z = true := by simpa [Fields.paid] using hp
    unfold unmarshalFields at h
    simp only [Bool.false_eq_true, if_false] at h
    generalize (if c.isSome = true then cur else e.root) = csv at h
    generalize hr : resolve (c.getD e.cfo) e.ctx csv f = r at h
    cases r with
    | none => cases h
    | some fi =>
      simp only at h
      split at h
      · next ht =>
        have k2 := pay_fields fs hz hz' hp.2 h
        have : f.steady = false := by
          cases hs : f.steady with
          | false => rfl
          | true => rw [steady_target hr hs] at ht; simp at ht
        simp only [Fields.least, this, Bool.false_eq_true, if_false]; omega
      · rw [M.bind_ok (M.get_run _)] at h
        obtain ⟨x, s1, h1, h⟩ := bind_ok_inv h
        cases h1
        obtain ⟨_, s2, h2, h⟩ := bind_ok_inv h
        have e2 := addR_rbits h2
        simp only [Bool.false_eq_true, if_false] at h
        generalize hx : SV.get cur f.name = o at h
        cases o with
        | none => cases h
        | some x =>
          obtain ⟨w, s3, h3, h⟩ := bind_ok_inv h
          simp only [false_and, if_false] at h
          have k1 := pay_V t hz (inst_resolve hz' hr) hp.1 h3
          have k2 := pay_fields fs hz hz' hp.2 h
          have := vol_set w hx
          simp only [Fields.least]
          split <;> omega
end

/-! ## The box itself -/

theorem readFull_length {d : Bytes} {n : Nat} {s s' : RSt} {b : Bytes} (h : readFull d n s = (.ok b, s')) : b.length ≤ n := by
  unfold readFull at h
  split at h
  · cases h; simp
  · split at h
    · cases h
    · simp only at h
      split at h
      · cases h
      · split at h
        · cases h
        · cases h; exact List.length_take_le _ _

theorem takeWhile_len (p : Byte → Bool) (l : Bytes) : (l.takeWhile p).length ≤ l.length :=
  (List.takeWhile_sublist p).length_le

theorem hook_vol {h : Hook} {d : Bytes} {name : String} {lft : Nat} {cur cur' : SV} {n : Nat} {ov : Bool} {s s' : RSt}
    (hr : onRead h d name lft cur s = (.ok (n, ov, cur'), s')) : 8 * volFields cur' ≤ n + 8 * volFields cur := by
  unfold onRead at hr
  cases h with
  | none => cases hr; omega
  | avcc =>
    simp only at hr
    split at hr
    · cases hr
      have := vol_set_le "HighProfileFieldsEnabled" (.bool (decide (32 ≤ lft) && avccHigh (cur.uint "Profile"))) cur
      simp only [vol] at this; omega
    · cases hr; omega
  | emsg =>
    simp only at hr
    split at hr
    · cases hr; omega
    · split at hr
      · cases hr; omega
      · split at hr
        · obtain ⟨a, s1, h1, hr⟩ := bind_ok_inv hr
          obtain ⟨b, s2, h2, hr⟩ := bind_ok_inv hr
          cases hr
          have k1 := vol_set_le "SchemeIdUri" (.str a) cur
          have k2 := vol_set_le "Value" (.str b) (cur.set "SchemeIdUri" (.str a))
          simp only [vol] at k1 k2; omega
        · cases hr; omega
  | hdlr =>
    simp only at hr
    split at hr
    · unfold hdlrOnReadName at hr
      simp only at hr
      split at hr
      · cases hr
        have := vol_set_le "Name" (.str []) cur
        simp only [vol, List.length_nil] at this; omega
      · obtain ⟨ok, s1, h1, hr⟩ := bind_ok_inv hr
        split at hr
        · cases hr
        · split at hr
          · cases hr
          · obtain ⟨buf, s2, h2, hr⟩ := bind_ok_inv hr
            have hl := readFull_length h2
            split at hr
            · cases hr
              have := vol_set_le "Name" (.str ((buf.drop 1).take (buf.headD 0#8).toNat)) cur
              have k : ((buf.drop 1).take (buf.headD 0#8).toNat).length ≤ buf.length := by
                rw [List.length_take, List.length_drop]; omega
              simp only [vol] at this; omega
            · cases hr
              have := vol_set_le "Name" (.str (buf.takeWhile fun c => c != 0#8)) cur
              have k := takeWhile_len (fun c => c != 0#8) buf
              simp only [vol] at this; omega
    · cases hr; omega

theorem pay_top : ∀ (fs : Fields) {z : String → Nat} {e : UEnv} {c : Cfo} {cur sv : SV} {s s' : USt}, LeastDyn z e.cfo →
    LeastDyn z c → fs.paid z = true → unmarshalFields e true (some c) fs cur s = (.ok sv, s') →
    s.rbits + 8 * volFields sv ≤ s'.rbits + 8 * volFields cur
  | .nil, z, e, c, cur, sv, s, s', _, _, _, h => by
    unfold unmarshalFields at h; cases h; omega
  | .cons f t fs, z, e, c, cur, sv, s, s', hz, hz', hp, h => by
    have hp : t.paid z f = true ∧ fs.paid z = true := by simpa [Fields.paid] using hp
    unfold unmarshalFields at h
    simp only [if_true, Option.isSome_some, Option.getD_some] at h
    generalize hr : resolve c e.ctx cur f = r at h
    cases r with
    | none => cases h
    | some fi =>
      simp only at h
      split at h
      · exact pay_top fs hz hz' hp.2 h
      · rw [M.bind_ok (M.get_run _)] at h
        obtain ⟨⟨n, ov, cur1⟩, s1, h1, h⟩ := bind_ok_inv h
        obtain ⟨e1, h1⟩ := liftR_rbits h1
        have k0 := hook_vol h1
        obtain ⟨_, s2, h2, h⟩ := bind_ok_inv h
        have e2 := addR_rbits h2
        simp only at h e2
        split at h
        · have := pay_top fs hz hz' hp.2 h
          omega
        · generalize hx : SV.get cur1 f.name = o at h
          cases o with
          | none => cases h
          | some x =>
            obtain ⟨w, s3, h3, h⟩ := bind_ok_inv h
            split at h
            · cases h
            · have k1 := pay_V t (z := z) (by exact hz) (inst_resolve hz' hr) hp.1 h3
              have k2 := pay_top fs hz hz' hp.2 h
              have := vol_set w hx
              omega

theorem vol_get {n : String} {x : Val} : ∀ {sv : SV}, sv.get n = some x → vol x ≤ volFields sv
  | [], h => by cases h
  | (m, y) :: rest, h => by
    unfold SV.get at h
    split at h
    · cases h; simp only [volFields]; omega
    · have := vol_get h
      simp only [volFields]; omega

theorem setVersion_vol (sv : SV) (v : Nat) : volFields (sv.setVersion v) ≤ volFields sv := by
  unfold SV.setVersion
  unfold SV.full
  cases hx : sv.get "FullBox" with
  | none => exact Nat.le_refl _
  | some x =>
    cases x with
    | struct f =>
      have k1 := vol_set (.struct (SV.set f "Version" (.uint v))) hx
      have k2 := vol_set_le "Version" (.uint v) f
      simp only [vol] at k1 k2 ⊢; omega
    | _ => exact Nat.le_refl _

theorem body_vol {bd : BoxDef} (hbd : bd ∈ Cat.allDefs) (ht : bd.goName ≠ "Trun") {d : Bytes} {ctx : Ctx} {ps : Nat} {cur sv : SV}
    {pos pos' n : Nat} (h : unmarshalBody bd d ctx ps cur pos = (.ok (n, sv), pos')) : volFields sv ≤ n + volFields cur := by
  unfold unmarshalBody at h
  generalize hx : unmarshalFields (bd.uenv d ctx ps) true (some bd.cfo) bd.fields cur ⟨RSt.fresh pos, 0⟩ = r at h
  obtain ⟨o, st⟩ := r
  cases o with
  | ok sv' =>
    simp only at h
    split at h
    · cases h
    · split at h
      · cases h
      · cases h
        have := pay_top bd.fields (leastDyn_sound hbd) (leastDyn_sound hbd) (allDefs_paid bd hbd ht) hx
        simp only at this
        omega
  | err e => cases e <;> cases h
  | panic => cases h
  | hang => cases h

theorem box_vol {bd : BoxDef} (hbd : bd ∈ Cat.allDefs) (ht : bd.goName ≠ "Trun") {d : Bytes} {ctx : Ctx} {ps : Nat} {dst sv : SV}
    {pos pos' n : Nat} (h : unmarshalBox bd d ctx ps dst pos = (.ok (n, sv), pos')) : volFields sv ≤ n + volFields dst := by
  have k0 := setVersion_vol dst anyVersion
  unfold unmarshalBox at h
  simp only at h
  split at h
  · obtain ⟨⟨ov, sv1⟩, s1, h1, h⟩ := bind_ok_inv h
    have k1 : volFields sv1 ≤ volFields (dst.setVersion anyVersion) := by
      unfold metaBefore at h1
      simp only at h1
      split at h1
      · cases h1
      · split at h1
        · cases h1
        · split at h1
          · cases h1
            have := vol_set_le "FullBox" (.struct [("Version", .uint 0), ("Flags", .arr [.uint 0, .uint 0, .uint 0])])
              (dst.setVersion anyVersion)
            simpa [vol, volFields, volList] using this
          · cases h1; exact Nat.le_refl _
    simp only at h
    split at h
    · cases h; omega
    · have := body_vol hbd ht h
      omega
  · have := body_vol hbd ht h
    omega

/-! ## Track runs -/

/-- fields followed by others -/
def Fields.plus : Fields → Fields → Fields
  | .nil, gs => gs
  | .cons f t fs, gs => .cons f t (fs.plus gs)

theorem fields_split' : ∀ (fs gs : Fields) {e : UEnv} {c : Cfo} {cur sv : SV} {s s' : USt} {Q : SV → USt → Prop},
    (∀ mid s1, unmarshalFields e true (some c) gs mid s1 = (.ok sv, s') → Q mid s1) →
    unmarshalFields e true (some c) (fs.plus gs) cur s = (.ok sv, s') →
    ∃ mid s1, unmarshalFields e true (some c) fs cur s = (.ok mid, s1) ∧ Q mid s1
  | .nil, gs, e, c, cur, sv, s, s', Q, hQ, h => ⟨cur, s, rfl, hQ _ _ h⟩
  | .cons f t fs, gs, e, c, cur, sv, s, s', Q, hQ, h => by
    rw [Fields.plus] at h
    unfold unmarshalFields at h ⊢
    simp only [if_true, Option.isSome_some, Option.getD_some] at h ⊢
    generalize hr : resolve c e.ctx cur f = r at h
    cases r with
    | none => cases h
    | some fi =>
      simp only at h ⊢
      split at h
      · next ht =>
        rw [if_pos ht]
        exact fields_split' fs gs hQ h
      · next ht =>
        rw [if_neg ht]
        rw [M.bind_ok (M.get_run _)] at h ⊢
        obtain ⟨⟨n, ov, cur1⟩, s1, h1, h⟩ := bind_ok_inv h
        rw [M.bind_ok h1]
        obtain ⟨_, s2, h2, h⟩ := bind_ok_inv h
        simp only
        rw [M.bind_ok h2]
        simp only at h
        split at h
        · next ho =>
          rw [if_pos ho]
          exact fields_split' fs gs hQ h
        · next ho =>
          rw [if_neg ho]
          generalize hx : SV.get cur1 f.name = o at h
          cases o with
          | none => cases h
          | some x =>
            obtain ⟨w, s3, h3, h⟩ := bind_ok_inv h
            simp only
            rw [M.bind_ok h3]
            split at h
            · cases h
            · next hf =>
              rw [if_neg hf]
              exact fields_split' fs gs hQ h

theorem fields_split (fs gs : Fields) {e : UEnv} {c : Cfo} {cur sv : SV} {s s' : USt}
    (h : unmarshalFields e true (some c) (fs.plus gs) cur s = (.ok sv, s')) :
    ∃ mid s1, unmarshalFields e true (some c) fs cur s = (.ok mid, s1) ∧
      unmarshalFields e true (some c) gs mid s1 = (.ok sv, s') := fields_split' fs gs (fun _ _ h => h) h

/-- the fields of `trun` before the samples -/
def trunHead : Fields := Fields.ofList [
  ({ name := "FullBox", extend := true }, fullBoxTy),
  ({ name := "SampleCount", size := 32 }, (.uint 32)),
  ({ name := "DataOffset", size := 32, optFlag := 1 }, (.int 32)),
  ({ name := "FirstSampleFlags", size := 32, optFlag := 4, hex := true }, (.uint 32))]

/-- the samples -/
def trunTail : Fields := .cons { name := "Entries", lenDyn := true, sizeDyn := true } (.slice Cat.tyTrunEntry) .nil

theorem trun_fields : Cat.bdTrun.fields = trunHead.plus trunTail := rfl

theorem flags_set_other {sv : SV} {n : String} {v : Val} (h : n ≠ "FullBox") : (sv.set n v).flags = sv.flags := by
  have : ∀ sv : SV, (sv.set n v).get "FullBox" = sv.get "FullBox" := by
    intro sv
    induction sv with
    | nil => rfl
    | cons x rest ih =>
      obtain ⟨m, y⟩ := x
      unfold SV.set
      split
      · next e => subst e; simp [SV.get, h]
      · simp only [SV.get, ih]
  unfold SV.flags SV.full
  rw [this]

theorem cfoTrun_size {ctx : Ctx} {sv : SV} (h : sv.flags &&& 0xf00 ≠ 0) :
    ∃ k, cfoTrun.size "Entries" ctx sv = some k ∧ 32 ≤ k ∧ k % 8 = 0 := by
  refine ⟨_, rfl, ?_, ?_⟩
  · have : sv.flags &&& 0x100 ≠ 0 ∨ sv.flags &&& 0x200 ≠ 0 ∨ sv.flags &&& 0x400 ≠ 0 ∨ sv.flags &&& 0x800 ≠ 0 := by
      false_or_by_contra
      rename_i hc
      simp only [not_or, Decidable.not_not] at hc
      apply h
      rw [show (0xf00 : Nat) = 0x100 ||| 0x200 ||| 0x400 ||| 0x800 from rfl, Nat.and_or_distrib_left, Nat.and_or_distrib_left,
        Nat.and_or_distrib_left, hc.1, hc.2.1, hc.2.2.1, hc.2.2.2]
      rfl
    rcases this with h | h | h | h <;> rw [if_pos h] <;> omega
  · repeat' split
    all_goals rfl

theorem trun_vol {d : Bytes} {ctx : Ctx} {ps : Nat} {dst sv : SV} {pos pos' n : Nat}
    (h : unmarshalBox Cat.bdTrun d ctx ps dst pos = (.ok (n, sv), pos')) (hf : sv.flags &&& 0xf00 ≠ 0) :
    volFields sv ≤ n + volFields dst := by
  have k0 := setVersion_vol dst anyVersion
  unfold unmarshalBox at h
  simp only at h
  rw [if_neg (by decide)] at h
  unfold unmarshalBody at h
  generalize hx : unmarshalFields (Cat.bdTrun.uenv d ctx ps) true (some Cat.bdTrun.cfo) Cat.bdTrun.fields _ ⟨RSt.fresh pos, 0⟩ = r at h
  obtain ⟨o, st⟩ := r
  cases o with
  | ok sv' =>
    simp only at h
    split at h
    · cases h
    · split at h
      · cases h
      · cases h
        rw [trun_fields] at hx
        obtain ⟨mid, s1, h1, h2⟩ := fields_split _ _ hx
        have p1 := pay_top trunHead (z := fun _ => 0) (leastDyn_zero _) (leastDyn_zero _) (by decide) h1
        unfold trunTail unmarshalFields at h2
        simp only [if_true, Option.isSome_some, Option.getD_some] at h2
        generalize hr : resolve _ _ mid _ = r at h2
        cases r with
        | none => cases h2
        | some fi =>
          simp only at h2
          rw [if_neg (by
            obtain ⟨size, length, rfl, -⟩ := resolve_eta hr
            simp [isTarget])] at h2
          rw [M.bind_ok (M.get_run _)] at h2
          obtain ⟨⟨k, ov, cur1⟩, s2, g1, h2⟩ := bind_ok_inv h2
          cases g1
          obtain ⟨_, s3, g2, h2⟩ := bind_ok_inv h2
          have e2 := addR_rbits g2
          simp only [Bool.false_eq_true, if_false] at h2
          generalize hg : SV.get mid "Entries" = o at h2
          cases o with
          | none => cases h2
          | some x =>
            obtain ⟨w, s4, g3, h2⟩ := bind_ok_inv h2
            simp only [show ¬ ("Entries" = "FullBox") by decide, false_and, and_false, if_false] at h2
            unfold unmarshalFields at h2
            cases h2
            rw [flags_set_other (by decide)] at hf
            obtain ⟨sz, q1, q2, q3⟩ := cfoTrun_size (ctx := ctx) hf
            obtain ⟨size, length, rfl, -, r2, -⟩ := resolve_eta hr
            have r2 : cfoTrun.size "Entries" ctx mid = some size := r2 rfl
            rw [q1] at r2
            cases r2
            unfold unmarshalV at g3
            have p2 := unmarshalSlice_vol (fun v s s' h => by
              have f1 := flat_V _ (by decide) h
              rw [vol_zero] at f1
              unfold Cat.tyTrunEntry unmarshalV at h
              have f2 := (structInternal_rbits (A := 0) (B := 8 * vol (Ty.zero Cat.tyTrunEntry)) (fun k s s' h => by
                obtain ⟨sv', s1, h1, h⟩ := bind_ok_inv h
                have := pay_fields Cat.fsTrunEntry (z := fun _ => 0) (leastDyn_zero _) (leastDyn_zero _) (by decide) h1
                simp only [Cat.tyTrunEntry, Ty.zero, vol]
                cases h
                omega) h).2 (by simp only; omega) (by simp only; omega)
              simp only at f2
              omega) g3
            have p3 := vol_set w hg
            simp only at p1 e2 p2
            omega
  | err e => cases e <;> cases h
  | panic => cases h
  | hang => cases h

/-! ## Lists at the end of a box -/

theorem countLoop_len {size8 : Nat} {f : UM Val} {k : Nat} (hf : ∀ v s s', f s = (.ok v, s') → s.rbits + k ≤ s'.rbits) :
    ∀ {n : Nat} {l : List Val} {s s' : USt}, countLoop size8 f n s = (.ok l, s') → s.rbits + k * l.length ≤ s'.rbits
  | 0, _, _, _, h => by cases h; simp
  | n + 1, l, s, s', h => by
    unfold countLoop at h
    obtain ⟨v, s1, h1, h⟩ := bind_ok_inv h
    obtain ⟨vs, s2, h2, h⟩ := bind_ok_inv h
    cases h
    have e1 := hf _ _ _ (sliceElem_ok h1)
    have e2 := countLoop_len hf h2
    simp only [List.length_cons, Nat.mul_add] at e2 ⊢; omega

theorem greedyLoop_len {size8 : Nat} {f : UM Val} {k : Nat} (hf : ∀ v s s', f s = (.ok v, s') → s.rbits + k ≤ s'.rbits) :
    ∀ {n : Nat} {l : List Val} {s s' : USt}, greedyLoop size8 f n s = (.ok l, s') → s.rbits + k * l.length ≤ s'.rbits
  | 0, _, _, _, h => by cases h
  | n + 1, l, s, s', h => by
    unfold greedyLoop at h
    rw [M.bind_ok (M.get_run _)] at h
    split at h
    · cases h; simp
    · obtain ⟨v, s1, h1, h⟩ := bind_ok_inv h
      obtain ⟨vs, s2, h2, h⟩ := bind_ok_inv h
      cases h
      have e1 := hf _ _ _ (sliceElem_ok h1)
      have e2 := greedyLoop_len hf h2
      simp only [List.length_cons, Nat.mul_add] at e2 ⊢; omega

theorem unmarshalSlice_len {d : Bytes} {size8 : Nat} {fi : Field} {f : UM Val} {k : Nat}
    (hf : ∀ v s s', f s = (.ok v, s') → s.rbits + k ≤ s'.rbits) {s s' : USt} {v : Val}
    (h : unmarshalSlice d size8 false fi f s = (.ok v, s')) : ∃ l, v = .slice l ∧ s.rbits + k * l.length ≤ s'.rbits := by
  unfold unmarshalSlice at h
  rw [M.bind_ok (M.get_run _)] at h
  simp only [Bool.false_eq_true, false_and, and_false, if_false] at h
  split at h
  · cases h
  · split at h
    · obtain ⟨l, s1, h1, h⟩ := bind_ok_inv h
      cases h
      exact ⟨l, rfl, greedyLoop_len hf h1⟩
    · obtain ⟨l, s1, h1, h⟩ := bind_ok_inv h
      cases h
      exact ⟨l, rfl, countLoop_len hf h1⟩

theorem get_set_vol {n : String} {v x : Val} : ∀ {sv : SV}, sv.get n = some x → (sv.set n v).get n = some v
  | [], h => by cases h
  | (m, y) :: rest, h => by
    unfold SV.get at h
    unfold SV.set
    split at h
    · next e => rw [if_pos e]; simp [SV.get, e]
    · next e => rw [if_neg e]; simp only [SV.get, if_neg e]; exact get_set_vol h

/-- a lower bound for what the elements of the last list of a box take of its payload -/
theorem last_list {bd : BoxDef} (hbd : bd ∈ Cat.allDefs) (hm : bd.metaHook = false) (hh : bd.hook = .none) {head : Fields} {f : Field}
    {t : Ty} (hf : bd.fields = head.plus (.cons f (.slice t) .nil)) (hn : f.name ≠ "FullBox") (hst : f.steady = true)
    (hb : t.isByte = false) (hp1 : head.paid (leastDyn bd) = true)
    (hp2 : t.paid (leastDyn bd) f = true) {d : Bytes} {ctx : Ctx} {ps : Nat} {dst sv : SV} {pos pos' n : Nat}
    (h : unmarshalBox bd d ctx ps dst pos = (.ok (n, sv), pos')) :
    ∃ l, sv.get f.name = some (.slice l) ∧ t.least (leastDyn bd) f * l.length ≤ 8 * n := by
  have k0 := setVersion_vol dst anyVersion
  unfold unmarshalBox at h
  simp only at h
  rw [if_neg (by rw [hm]; simp)] at h
  unfold unmarshalBody at h
  generalize hx : unmarshalFields (bd.uenv d ctx ps) true (some bd.cfo) bd.fields _ ⟨RSt.fresh pos, 0⟩ = r at h
  obtain ⟨o, st⟩ := r
  cases o with
  | ok sv' =>
    simp only at h
    split at h
    · cases h
    · split at h
      · cases h
      · cases h
        rw [hf] at hx
        obtain ⟨mid, s1, h1, h2⟩ := fields_split _ _ hx
        have hz := leastDyn_sound hbd
        have p1 := pay_top head (z := leastDyn bd) hz hz hp1 h1
        unfold unmarshalFields at h2
        simp only [if_true, Option.isSome_some, Option.getD_some] at h2
        generalize hr : resolve _ _ mid f = r at h2
        cases r with
        | none => cases h2
        | some fi =>
          simp only at h2
          rw [if_neg (by rw [steady_target hr hst]; simp)] at h2
          rw [M.bind_ok (M.get_run _)] at h2
          obtain ⟨⟨k, ov, cur1⟩, s2, g1, h2⟩ := bind_ok_inv h2
          have hhook : (bd.uenv d ctx ps).hook = .none := hh
          rw [hhook] at g1
          cases g1
          obtain ⟨_, s3, g2, h2⟩ := bind_ok_inv h2
          have e2 := addR_rbits g2
          simp only [Bool.false_eq_true, if_false] at h2
          generalize hg : SV.get mid f.name = o at h2
          cases o with
          | none => cases h2
          | some x =>
            obtain ⟨w, s4, g3, h2⟩ := bind_ok_inv h2
            simp only [hn, false_and, and_false, if_false] at h2
            unfold unmarshalFields at h2
            cases h2
            unfold unmarshalV at g3
            rw [hb] at g3
            obtain ⟨l, rfl, p2⟩ := unmarshalSlice_len (k := t.least (leastDyn bd) f) (fun v s s' h => by
              have := pay_V t (by exact hz) (inst_resolve hz hr) hp2 h
              rw [vol_zero] at this
              omega) g3
            refine ⟨l, get_set_vol hg, ?_⟩
            simp only at p1 p2 e2
            omega
  | err e => cases e <;> cases h
  | panic => cases h
  | hang => cases h

end Mp4
