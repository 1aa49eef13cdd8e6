import Verif.Model.Registry

/-!
# C19: lookup of box definitions
-/

namespace Mp4.Props

open Mp4

/-- The context condition of a registration. -/
def AppliesIn (ctx : Ctx) (bd : BoxDef) : Prop := bd.target = none ∨ ∃ f, bd.target = some f ∧ f ctx = true

private theorem isFor_iff (ctx : Ctx) (bd : BoxDef) : bd.isFor ctx = true ↔ AppliesIn ctx bd := by
  unfold BoxDef.isFor AppliesIn
  cases bd.target <;> simp

/-- In the history of registrations (oldest first), `bd` is the newest registration for type `t` whose condition holds. -/
def Newest (hist : List (BoxType × BoxDef)) (t : BoxType) (ctx : Ctx) (bd : BoxDef) : Prop :=
  ∃ before after, hist = before ++ (t, bd) :: after ∧ AppliesIn ctx bd ∧
    ∀ r ∈ after, r.1 = t → ¬ AppliesIn ctx r.2

/-- No registration for type `t` has a condition that holds. -/
def NoneApplies (hist : List (BoxType × BoxDef)) (t : BoxType) (ctx : Ctx) : Prop :=
  ∀ r ∈ hist, r.1 = t → ¬ AppliesIn ctx r.2

/-- The type is the number of a QuickTime item: below `ilst`, from 1 to the number of keys. -/
def NumberedItem (t : BoxType) (ctx : Ctx) : Prop :=
  ctx.underIlst = true ∧ ∃ k : Nat, 1 ≤ k ∧ (k : Int) ≤ ctx.quickTimeKeysMetaEntryCount ∧ k < 2 ^ 32 ∧
    t = BoxType.ofUint32 (BitVec.ofNat 32 k)

/-- The definition that has to be used. -/
def Chosen (hist : List (BoxType × BoxDef)) (t : BoxType) (ctx : Ctx) : Option BoxDef → Prop
  | some bd => Newest hist t ctx bd ∨ NoneApplies hist t ctx ∧ NumberedItem t ctx ∧ bd = Cat.bdItem
  | none => NoneApplies hist t ctx ∧ ¬ NumberedItem t ctx

private theorem ofRegs_snoc (l : List (BoxType × BoxDef)) (r : BoxType × BoxDef) (t : BoxType) :
    BoxMap.ofRegs (l ++ [r]) t = if t = r.1 then BoxMap.ofRegs l t ++ [r.2] else BoxMap.ofRegs l t := by
  unfold BoxMap.ofRegs
  rw [List.foldl_append]
  rfl

private theorem defLoop_append (l : List BoxDef) (x : BoxDef) (ctx : Ctx) : ∀ n, n ≤ l.length →
    defLoop (l ++ [x]) ctx n = defLoop l ctx n := by
  intro n
  induction n with
  | zero => intros; rfl
  | succ n ih =>
    intro h
    unfold defLoop
    rw [List.getElem?_append_left (by omega), ih (by omega)]

private theorem defLoop_snoc (l : List BoxDef) (x : BoxDef) (ctx : Ctx) :
    defLoop (l ++ [x]) ctx (l ++ [x]).length = if x.isFor ctx then some x else defLoop l ctx l.length := by
  rw [List.length_append]
  change defLoop (l ++ [x]) ctx (l.length + 1) = _
  rw [defLoop, List.getElem?_append_right (Nat.le_refl _)]
  simp only [Nat.sub_self, List.getElem?_cons_zero]
  rw [defLoop_append _ _ _ _ (Nat.le_refl _)]

private theorem loop_spec (t : BoxType) (ctx : Ctx) (hist : List (BoxType × BoxDef)) :
    match defLoop (BoxMap.ofRegs hist t) ctx (BoxMap.ofRegs hist t).length with
    | some bd => Newest hist t ctx bd
    | none => NoneApplies hist t ctx := by
  have key : ∀ rev : List (BoxType × BoxDef),
      match defLoop (BoxMap.ofRegs rev.reverse t) ctx (BoxMap.ofRegs rev.reverse t).length with
      | some bd => Newest rev.reverse t ctx bd
      | none => NoneApplies rev.reverse t ctx := by
    intro rev
    induction rev with
    | nil => simp [BoxMap.ofRegs, defLoop, NoneApplies]
    | cons r rev ih =>
      rw [List.reverse_cons, ofRegs_snoc]
      by_cases ht : t = r.1
      · rw [if_pos ht, defLoop_snoc]
        by_cases hf : r.2.isFor ctx = true
        · rw [if_pos hf]
          exact ⟨rev.reverse, [], by rw [ht], (isFor_iff _ _).1 hf, by simp⟩
        · rw [if_neg hf]
          split at ih
          · next bd hl =>
            obtain ⟨b, a, he, h1, h2⟩ := ih
            refine ⟨b, a ++ [r], by rw [he]; simp, h1, ?_⟩
            intro x hx hxt
            rcases List.mem_append.1 hx with hx | hx
            · exact h2 x hx hxt
            · rw [List.mem_singleton.1 hx]
              exact fun h => hf ((isFor_iff _ _).2 h)
          · next hl =>
            intro x hx hxt
            rcases List.mem_append.1 hx with hx | hx
            · exact ih x hx hxt
            · rw [List.mem_singleton.1 hx]
              exact fun h => hf ((isFor_iff _ _).2 h)
      · rw [if_neg ht]
        split at ih
        · next bd hl =>
          obtain ⟨b, a, he, h1, h2⟩ := ih
          refine ⟨b, a ++ [r], by rw [he]; simp, h1, ?_⟩
          intro x hx hxt
          rcases List.mem_append.1 hx with hx | hx
          · exact h2 x hx hxt
          · rw [List.mem_singleton.1 hx] at hxt
            exact absurd hxt.symm ht
        · next hl =>
          intro x hx hxt
          rcases List.mem_append.1 hx with hx | hx
          · exact ih x hx hxt
          · rw [List.mem_singleton.1 hx] at hxt
            exact absurd hxt.symm ht
  have := key hist.reverse
  rwa [List.reverse_reverse] at this

private theorem typeId (t : BoxType) (k : Nat) (hk : k < 2 ^ 32) :
    t = BoxType.ofUint32 (BitVec.ofNat 32 k) ↔ beNat t.bytes = k := by
  obtain ⟨a, b, c, d⟩ := t
  have hb : beNat (BoxType.bytes ⟨a, b, c, d⟩) =
      a.toNat * 16777216 + b.toNat * 65536 + c.toNat * 256 + d.toNat := by
    simp only [BoxType.bytes, beNat, List.foldl]
    omega
  rw [hb]
  have := a.isLt; have := b.isLt; have := c.isLt; have := d.isLt
  simp only [BoxType.ofUint32, BoxType.mk.injEq, ← BitVec.toNat_inj, BitVec.toNat_setWidth, BitVec.toNat_ushiftRight,
    BitVec.toNat_ofNat, Nat.shiftRight_eq_div_pow]
  omega

/-- **C19** — For every history of registrations, every type and every context, the definition used is the newest one
registered for that type whose condition holds; without one, numbered items below `ilst` use the definition of items;
otherwise there is none. -/
theorem lookup_is_newest (hist : List (BoxType × BoxDef)) (t : BoxType) (ctx : Ctx) :
    Chosen hist t ctx ((BoxMap.ofRegs hist).getBoxDef t ctx) := by
  have hl := loop_spec t ctx hist
  unfold BoxMap.getBoxDef
  split at hl
  · next bd he => rw [he]; exact .inl hl
  · next he =>
    rw [he]
    simp only
    have hnum : NumberedItem t ctx ↔ ctx.underIlst = true ∧
        (1 ≤ ((beNat t.bytes : Nat) : Int) ∧ ((beNat t.bytes : Nat) : Int) ≤ ctx.quickTimeKeysMetaEntryCount) := by
      constructor
      · rintro ⟨hu, k, h1, h2, h3, h4⟩
        rw [typeId t k h3] at h4
        rw [h4]
        exact ⟨hu, by omega, h2⟩
      · rintro ⟨hu, h1, h2⟩
        have hlt : beNat t.bytes < 2 ^ 32 := by
          obtain ⟨a, b, c, d⟩ := t
          simp only [BoxType.bytes, beNat, List.foldl]
          have := a.isLt; have := b.isLt; have := c.isLt; have := d.isLt
          omega
        exact ⟨hu, beNat t.bytes, by omega, h2, hlt, (typeId t _ hlt).2 rfl⟩
    split
    · next h1 =>
      split
      · next h2 => exact .inr ⟨hl, hnum.2 ⟨h1, h2⟩, rfl⟩
      · next h2 => exact ⟨hl, fun h => h2 (hnum.1 h).2⟩
    · next h1 => exact ⟨hl, fun h => h1 (hnum.1 h).1⟩

/-- The choice is unambiguous: `Chosen` determines the answer, so that `lookup_is_newest` says exactly what `getBoxDef`
returns. -/
theorem chosen_unique (hist : List (BoxType × BoxDef)) (t : BoxType) (ctx : Ctx) (a b : Option BoxDef)
    (ha : Chosen hist t ctx a) (hb : Chosen hist t ctx b) : a = b := by
  have clash : ∀ {bd}, Newest hist t ctx bd → ¬ NoneApplies hist t ctx := by
    rintro bd ⟨p, q, rfl, h1, -⟩ hn
    exact hn (t, bd) (by simp) rfl h1
  have uniq : ∀ {x y}, Newest hist t ctx x → Newest hist t ctx y → x = y := by
    rintro x y ⟨p, q, rfl, h1, h2⟩ ⟨p', q', he, h1', h2'⟩
    rcases List.append_eq_append_iff.1 he with ⟨l, h3, h4⟩ | ⟨l, h3, h4⟩
    · cases l with
      | nil => simp only [List.nil_append, List.cons.injEq, Prod.mk.injEq, true_and] at h4; exact h4.1
      | cons r l =>
        simp only [List.cons_append, List.cons.injEq] at h4
        exact absurd h1' (h2 (t, y) (by rw [h4.2]; simp) rfl)
    · cases l with
      | nil => simp only [List.nil_append, List.cons.injEq, Prod.mk.injEq, true_and] at h4; exact h4.1.symm
      | cons r l =>
        simp only [List.cons_append, List.cons.injEq] at h4
        exact absurd h1 (h2' (t, x) (by rw [h4.2]; simp) rfl)
  cases a with
  | none =>
    cases b with
    | none => rfl
    | some y =>
      rcases hb with hb | hb
      · exact absurd ha.1 (clash hb)
      · exact absurd hb.2.1 ha.2
  | some x =>
    cases b with
    | none =>
      rcases ha with ha | ha
      · exact absurd hb.1 (clash ha)
      · exact absurd ha.2.1 hb.2
    | some y =>
      rcases ha with ha | ha
      · rcases hb with hb | hb
        · rw [uniq ha hb]
        · exact absurd hb.1 (clash ha)
      · rcases hb with hb | hb
        · exact absurd ha.1 (clash hb)
        · rw [ha.2.2, hb.2.2]

/-- **C19** — `IsSupported`, `New`, `GetSupportedVersions` and `IsSupportedVersion` all agree with that choice: `New` gives
the zero value of the chosen Go type, which answers the requested type; a version is supported iff the chosen
definition lists it or lists none. -/
theorem lookup_functions_agree (hist : List (BoxType × BoxDef)) (t : BoxType) (ctx : Ctx) (o : Option BoxDef)
    (ho : Chosen hist t ctx o) :
    let m := BoxMap.ofRegs hist
    match o with
    | some bd => m.isSupported t ctx = true ∧ m.new t ctx = .ok ⟨bd, t, bd.fields.zero⟩ ∧
        m.getSupportedVersions t ctx = .ok bd.versions ∧
        ∀ v, m.isSupportedVersion t v ctx = true ↔ bd.versions = [] ∨ v ∈ bd.versions
    | none => m.isSupported t ctx = false ∧ m.new t ctx = .error .boxInfoNotFound ∧
        m.getSupportedVersions t ctx = .error .boxInfoNotFound ∧ ∀ v, m.isSupportedVersion t v ctx = false := by
  have he := chosen_unique hist t ctx _ _ (lookup_is_newest hist t ctx) ho
  cases o with
  | none =>
    simp only [BoxMap.isSupported, BoxMap.new, BoxMap.getSupportedVersions, BoxMap.isSupportedVersion, he]
    simp
  | some bd =>
    simp only [BoxMap.isSupported, BoxMap.new, BoxMap.getSupportedVersions, BoxMap.isSupportedVersion, he]
    refine ⟨rfl, trivial, trivial, ?_⟩
    intro v
    unfold BoxDef.supports
    simp

/-- The hypotheses are met, in the library's own history: `gnre` is registered twice, for 3GPP metadata below `udta` and for
iTunes metadata below `ilst`; `cprt` outside of both is not supported; item 2 of 3. -/
example : ((BoxMap.std.getBoxDef ⟨0x67, 0x6e, 0x72, 0x65⟩ { underUdta := true }).map (·.goName)) = some "Udta3GppString" ∧
    ((BoxMap.std.getBoxDef ⟨0x67, 0x6e, 0x72, 0x65⟩ { underUdta := true, underIlst := true }).map (·.goName)) =
      some "IlstMetaContainer" ∧
    ((BoxMap.std.getBoxDef ⟨0x67, 0x6e, 0x72, 0x65⟩ {}).map (·.goName)) = none ∧
    ((BoxMap.std.getBoxDef ⟨0, 0, 0, 2⟩ { underIlst := true, quickTimeKeysMetaEntryCount := 3 }).map (·.goName)) =
      some "Item" ∧
    ((BoxMap.std.getBoxDef ⟨0, 0, 0, 4⟩ { underIlst := true, quickTimeKeysMetaEntryCount := 3 }).map (·.goName)) =
      none := by decide +kernel

end Mp4.Props
