import Verif.Model.Read

/-! # The result of a traversal does not depend on the fuel, once there is enough -/

namespace Mp4

section
variable {S P V : Type} {m : BoxMap} {d : Bytes}

theorem M.bind_mono {σ α β : Type} {x x' : M σ α} {k k' : α → M σ β} {s : σ}
    (hx : (x s).1 ≠ .hang → x' s = x s) (hk : ∀ a s', x s = (.ok a, s') → (k a s').1 ≠ .hang → k' a s' = k a s')
    (h : ((x >>= k) s).1 ≠ .hang) : (x' >>= k') s = (x >>= k) s := by
  cases hr : x s with
  | mk o s' =>
    match o with
    | .ok a =>
      have h1 := hx (by rw [hr]; simp)
      rw [hr] at h1
      rw [M.bind_ok h1, M.bind_ok hr]
      exact hk a s' hr (by rw [M.bind_ok hr] at h; exact h)
    | .err e =>
      have h1 := hx (by rw [hr]; simp)
      rw [hr] at h1
      rw [M.bind_err h1, M.bind_err hr]
    | .panic =>
      have h1 := hx (by rw [hr]; simp)
      rw [hr] at h1
      rw [M.bind_panic h1, M.bind_panic hr]
    | .hang => exact absurd (by rw [M.bind_hang hr]) h

theorem tryM_mono {σ α : Type} {x x' : M σ α} {s : σ} (hx : (x s).1 ≠ .hang → x' s = x s)
    (h : (tryM x s).1 ≠ .hang) : tryM x' s = tryM x s := by
  unfold tryM at *
  cases hr : x s with
  | mk o s' =>
    match o with
    | .ok a => rw [hx (by rw [hr]; simp), hr]
    | .err e => rw [hx (by rw [hr]; simp), hr]
    | .panic => rw [hx (by rw [hr]; simp), hr]
    | .hang => rw [hr] at h; exact absurd rfl h

theorem runProg_mono {path : List BoxType} {bi : BoxInfo} {c c' : Nat → P → TM S V (List V)}
    (hc : ∀ n p st, (c n p st).1 ≠ .hang → c' n p st = c n p st) :
    ∀ (pr : Prog S P V) (co : Nat) (st : TSt S V), (runProg m d path bi c pr co st).1 ≠ .hang →
      runProg m d path bi c' pr co st = runProg m d path bi c pr co st := by
  intro pr
  induction pr with
  | ret v => intro co st _; rfl
  | err e => intro co st _; rfl
  | get k ih =>
    intro co st h
    simp only [runProg] at h ⊢
    exact M.bind_mono (fun _ => rfl) (fun a s' _ h => ih _ _ _ h) h
  | set s k ih =>
    intro co st h
    simp only [runProg] at h ⊢
    exact M.bind_mono (fun _ => rfl) (fun a s' _ h => ih _ _ h) h
  | stream mv k ih =>
    intro co st h
    simp only [runProg] at h ⊢
    exact M.bind_mono (fun _ => rfl) (fun a s' _ h => M.bind_mono (fun _ => rfl) (fun a s' _ h => ih _ _ _ h) h) h
  | readPayload k ih =>
    intro co st h
    simp only [runProg] at h ⊢
    refine M.bind_mono (fun _ => rfl) (fun a s' _ h => ?_) h
    match a with
    | .ok (box, n) => exact ih _ _ _ h
    | .error e => exact ih _ _ _ h
  | readData w k ih =>
    intro co st h
    simp only [runProg] at h ⊢
    exact M.bind_mono (fun _ => rfl) (fun a s' _ h => ih _ _ _ _ h) h
  | expand q k ih =>
    intro co st h
    simp only [runProg] at h ⊢
    refine M.bind_mono (fun _ => rfl) (fun a s' _ h => ?_) h
    match a with
    | .error e => exact ih _ _ _ h
    | .ok co' =>
      refine M.bind_mono (fun _ => rfl) (fun a s' _ h => ?_) h
      refine M.bind_mono (fun h => tryM_mono (hc _ _ _) h) (fun a s' _ h => ?_) h
      refine M.bind_mono (fun _ => rfl) (fun _ s' _ h => ?_) h
      exact ih _ _ _ h

theorem fromInternal_mono {h : Handler S P V} {rec rec' : BoxInfo → Nat → List BoxType → Ctx → P → TM S V (List V)}
    (hrec : ∀ par total path ctx p st, (rec par total path ctx p st).1 ≠ .hang →
      rec' par total path ctx p st = rec par total path ctx p st)
    (parent : Option BoxInfo) (bi : BoxInfo) (path : List BoxType) (p : P) (st : TSt S V)
    (hh : (fromInternal m d h rec parent bi path p st).1 ≠ .hang) :
    fromInternal m d h rec' parent bi path p st = fromInternal m d h rec parent bi path p st := by
  unfold fromInternal at hh ⊢
  refine M.bind_mono (fun _ => rfl) (fun a s' _ hh => ?_) hh
  refine M.bind_mono (fun _ => rfl) (fun a s' _ hh => ?_) hh
  refine M.bind_mono (fun _ => rfl) (fun a s' _ hh => ?_) hh
  refine M.bind_mono (fun _ => rfl) (fun _ s' _ hh => ?_) hh
  refine M.bind_mono (fun hh => tryM_mono (runProg_mono (fun n p st => hrec _ _ _ _ _ _) _ _ _) hh)
    (fun _ s' _ _ => rfl) hh

/-- One more unit of fuel changes nothing unless the fuel was used up. -/
theorem readStructure_mono {h : Handler S P V} : ∀ (f : Nat) (parent : Option BoxInfo) (total : Nat) (isRoot : Bool)
    (path : List BoxType) (ctx : Ctx) (p : P) (st : TSt S V),
    (readStructure m d h f parent total isRoot path ctx p st).1 ≠ .hang →
    readStructure m d h (f + 1) parent total isRoot path ctx p st = readStructure m d h f parent total isRoot path ctx p st := by
  intro f
  induction f with
  | zero => intro parent total isRoot path ctx p st hh; exact absurd rfl hh
  | succ f ih =>
    intro parent total isRoot path ctx p st hh
    rw [readStructure] at hh
    rw [readStructure.eq_def m d h (f + 1 + 1), readStructure.eq_def m d h (f + 1)]
    simp only
    split
    · next hc =>
      rw [if_pos hc] at hh
      refine M.bind_mono (fun _ => rfl) (fun a s' _ hh => ?_) hh
      match a with
      | .error e => rfl
      | .ok bi =>
        simp only at hh ⊢
        split
        · rfl
        · next hs =>
          rw [if_neg hs] at hh
          refine M.bind_mono (fun hh => fromInternal_mono (fun par total path ctx p st h => ih _ _ _ _ _ _ _ h) _ _ _ _ _ hh)
            (fun a s' _ hh => ?_) hh
          obtain ⟨v, bi'⟩ := a
          simp only at hh ⊢
          exact M.bind_mono (fun hh => ih _ _ _ _ _ _ _ hh) (fun _ _ _ _ => rfl) hh
    · rfl

theorem readStructure_mono_le {h : Handler S P V} {f f' : Nat} (hle : f ≤ f') (parent : Option BoxInfo) (total : Nat)
    (isRoot : Bool) (path : List BoxType) (ctx : Ctx) (p : P) (st : TSt S V)
    (hh : (readStructure m d h f parent total isRoot path ctx p st).1 ≠ .hang) :
    readStructure m d h f' parent total isRoot path ctx p st = readStructure m d h f parent total isRoot path ctx p st := by
  induction hle with
  | refl => rfl
  | step _ ih => rw [readStructure_mono _ _ _ _ _ _ _ _ (by rw [ih]; exact hh), ih]

end
end Mp4
