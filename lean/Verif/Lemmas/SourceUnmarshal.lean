import Verif.Lemmas.Source

/-!
# `Unmarshal` from a source compared with `Unmarshal` from memory
-/

namespace Mp4.Src

open Mp4 Mp4.Spec

variable {σ α β : Type} {k : Rdr σ} {d : Bytes} {place : σ → Nat} {failed : σ → Option Err}

/-- What is assumed about the source and the loops. -/
structure Reads (k : Rdr σ) (d : Bytes) (place : σ → Nat) (failed : σ → Option Err) : Prop where
  serves : Serves k.src d place failed
  ask : ∀ n, 0 < n → 0 < k.ask n ∧ k.ask n ≤ n
  fuel : k.fuel = d.length + 2

/-- for the unmarshaller -/
abbrev SimU (place : σ → Nat) (failed : σ → Option Err) (ms : M (US σ) α) (m : UM α) : Prop := Sim (abU place) (flU failed) ms m

theorem liftR_sim {ms : M (RS σ) α} {m : RM α} (h : Sim (abR place) (flR failed) ms m) : SimU place failed (liftR ms) (Mp4.liftR m) := by
  intro t ht
  unfold liftR Mp4.liftR
  rcases h t.r ht with ⟨h1, h2⟩ | ⟨e, h1, h2⟩
  · left
    generalize ms t.r = x at h1 h2
    obtain ⟨o, t'⟩ := x
    refine ⟨h1, ?_⟩
    rw [show (abU place t).r = abR place t.r from rfl, h2]
    rfl
  · right
    generalize ms t.r = x at h1 h2
    obtain ⟨o, t'⟩ := x
    exact ⟨e, h1, h2⟩

theorem addR_sim (n : Nat) : SimU place failed (addR n) (Mp4.addR n) := sim_modify (fun _ => rfl) (fun _ => rfl)

theorem alloc_sim (n : Nat) : SimU place failed (alloc n) (Mp4.alloc n) := by
  unfold alloc Mp4.alloc
  exact sim_ite (fun _ => sim_pure _) (fun _ => sim_panic)

theorem readBitsA_sim (hk : Reads k d place failed) (n : Nat) : SimU place failed (readBitsA k.src n) (Mp4.readBitsA d n) := by
  unfold readBitsA Mp4.readBitsA
  exact sim_bind (alloc_sim _) fun _ => liftR_sim (readBits_sim hk.serves n)

theorem unmarshalInt_sim (hk : Reads k d place failed) (w : Nat) (fi : Field) : SimU place failed (unmarshalInt k w fi) (Mp4.unmarshalInt d w fi) := by
  unfold unmarshalInt Mp4.unmarshalInt
  refine sim_ite (fun _ => sim_fail _) fun _ => sim_ite (fun _ => sim_fail _) fun _ => ?_
  exact sim_bind (readBitsA_sim hk _) fun _ => sim_bind (addR_sim _) fun _ => sim_pure _

theorem readUvarint_sim (hk : Reads k d place failed) : ∀ fuel val, SimU place failed (readUvarint k.src fuel val) (Mp4.readUvarint d fuel val)
  | 0, _ => sim_hang
  | fuel + 1, val => by
    unfold readUvarint Mp4.readUvarint
    refine sim_bind (liftR_sim (readBits_sim hk.serves 8)) fun _ => sim_bind (addR_sim _) fun _ => ?_
    exact sim_ite (fun _ => sim_pure _) fun _ => readUvarint_sim hk fuel _

theorem unmarshalUint_sim (hk : Reads k d place failed) (w : Nat) (fi : Field) : SimU place failed (unmarshalUint k w fi) (Mp4.unmarshalUint d w fi) := by
  unfold unmarshalUint Mp4.unmarshalUint
  rw [hk.fuel]
  refine sim_ite (fun _ => sim_bind (readUvarint_sim hk _ _) fun _ => sim_pure _) fun _ => sim_ite (fun _ => sim_fail _) fun _ => ?_
  exact sim_bind (readBitsA_sim hk _) fun _ => sim_bind (addR_sim _) fun _ => sim_pure _

theorem unmarshalBool_sim (hk : Reads k d place failed) (fi : Field) : SimU place failed (unmarshalBool k fi) (Mp4.unmarshalBool d fi) := by
  unfold unmarshalBool Mp4.unmarshalBool
  refine sim_ite (fun _ => sim_fail _) fun _ => ?_
  exact sim_bind (readBitsA_sim hk _) fun _ => sim_bind (addR_sim _) fun _ => sim_pure _

theorem stringCLoop_sim (hk : Reads k d place failed) (size8 : Nat) : ∀ fuel, SimU place failed (stringCLoop k.src size8 fuel) (Mp4.stringCLoop d size8 fuel)
  | 0 => sim_hang
  | fuel + 1 => by
    unfold stringCLoop Mp4.stringCLoop
    refine sim_get fun t => ?_
    refine sim_ite (fun _ => sim_pure _) fun _ => ?_
    refine sim_bind (liftR_sim (readBits_sim hk.serves 8)) fun _ => sim_bind (addR_sim _) fun _ => ?_
    refine sim_ite (fun _ => sim_pure _) fun _ => ?_
    exact sim_bind (stringCLoop_sim hk size8 fuel) fun _ => sim_pure _

theorem unmarshalStringC_sim (hk : Reads k d place failed) (size8 : Nat) : SimU place failed (unmarshalStringC k size8) (Mp4.unmarshalStringC d size8) := by
  unfold unmarshalStringC Mp4.unmarshalStringC
  exact sim_bind (stringCLoop_sim hk _ _) fun _ => sim_pure _

theorem seekStart_sim (hk : Reads k d place failed) (p : Nat) : SimU place failed (liftR (seekReset (k.src.seek p)) >>= fun _ => pure ()) (Mp4.liftR (Mp4.seekStart p)) := by
  have h := liftR_sim (seekReset_sim (want := p) (hk.serves.seek p))
  have h2 := sim_bind (β := Unit) (f := fun _ => pure ()) h fun _ => sim_pure ()
  exact h2

theorem tryReadPString_sim (hk : Reads k d place failed) (size8 : Nat) : SimU place failed (tryReadPString k size8) (Mp4.tryReadPString d size8) := by
  unfold tryReadPString Mp4.tryReadPString
  refine sim_get fun t => ?_
  refine sim_ite (fun _ => sim_pure _) fun _ => ?_
  refine sim_bind (liftR_sim (seekCurrent_sim hk.serves)) fun off => sim_bind (liftR_sim (readFull_sim hk.serves 1)) fun _ => ?_
  refine sim_ite (fun _ => ?_) fun _ => ?_
  · have h := liftR_sim (seekReset_sim (want := off) (hk.serves.seek off))
    exact sim_bind (f := fun _ => pure none) h fun _ => sim_pure _
  · exact sim_bind (liftR_sim (readFull_sim hk.serves _)) fun _ => sim_bind (addR_sim _) fun _ => sim_pure _

theorem unmarshalString_sim (hk : Reads k d place failed) (size8 : Nat) (fi : Field) : SimU place failed (unmarshalString k size8 fi) (Mp4.unmarshalString d size8 fi) := by
  unfold unmarshalString Mp4.unmarshalString
  refine sim_ite (fun _ => ?_) fun _ => unmarshalStringC_sim hk _
  refine sim_bind (tryReadPString_sim hk _) fun a => ?_
  cases a with
  | some v => exact sim_pure _
  | none => exact unmarshalStringC_sim hk _

theorem readStringZ_sim (hk : Reads k d place failed) : ∀ fuel old, Sim (abR place) (flR failed) (readStringZ k.src fuel old) (Mp4.readStringZ d fuel)
  | 0, _ => sim_hang
  | fuel + 1, old => by
    unfold readStringZ Mp4.readStringZ
    have h := readOnce_sim hk.serves
    intro t ht
    rw [M.bind_run, M.bind_run]
    rcases h t ht with ⟨h1, h2⟩ | ⟨e, h1, h2⟩
    · have hne : ∀ b s', Mp4.readSome d 1 (abR place t) = (.ok b, s') → b ≠ [] := by
        intro b s' hb
        unfold Mp4.readSome at hb
        split at hb
        · cases hb
        · split at hb
          · cases hb
          · next hlt =>
            cases hb
            intro hx
            have := congrArg List.length hx
            rw [List.length_take, List.length_drop] at this
            simp only [abR, List.length_nil] at this hlt
            omega
      rw [h2]
      rw [h2] at hne
      generalize aligned (readOnce k.src 1) t = x at h1 h2 hne
      obtain ⟨o, t'⟩ := x
      cases o with
      | ok a =>
        have ha := hne a _ rfl
        simp only
        have : a.headD old = a.headD 0#8 := by
          cases a with
          | nil => exact absurd rfl ha
          | cons x l => rfl
        rw [this]
        have hr : Sim (abR place) (flR failed) (if a.headD 0#8 = 0#8 then pure [] else readStringZ k.src fuel (a.headD 0#8) >>= fun rest => pure (a.headD 0#8 :: rest))
            (if a.headD 0#8 = 0#8 then pure [] else Mp4.readStringZ d fuel >>= fun rest => pure (a.headD 0#8 :: rest)) :=
          sim_ite (fun _ => sim_pure _) fun _ => sim_bind (readStringZ_sim hk fuel _) fun _ => sim_pure _
        exact hr t' h1
      | err e => exact .inl ⟨h1, rfl⟩
      | panic => exact .inl ⟨h1, rfl⟩
      | hang => exact .inl ⟨h1, rfl⟩
    · generalize aligned (readOnce k.src 1) t = x at h1 h2
      obtain ⟨o, t'⟩ := x
      right
      rcases h2 with h2 | h2 | h2 <;> · simp only at h2; subst h2; exact ⟨e, h1, by simp [Reported]⟩

/-- what is done if `readerHasSize` says no, and else -/
theorem hasSize_bind_sim (hk : Reads k d place failed) (n : Nat) {fs : M (RS σ) β} {f : RM β} (hf : Sim (abR place) (flR failed) fs f) :
    Sim (abR place) (flR failed) (readerHasSize k.src n >>= fun ok => if ¬ ok then M.fail .notEnoughBits else fs)
      (Mp4.readerHasSize d n >>= fun ok => if ¬ ok then M.fail .notEnoughBits else f) := by
  intro t ht
  rw [M.bind_run, M.bind_run]
  rcases readerHasSize_sim hk.serves n t ht with ⟨h1, h2⟩ | ⟨e, h1, h2⟩
  · rw [h2]
    generalize readerHasSize k.src n t = x at h1 h2
    obtain ⟨o, t'⟩ := x
    cases o with
    | ok a =>
      have hr : Sim (abR place) (flR failed) (if ¬ a then M.fail .notEnoughBits else fs) (if ¬ a then M.fail .notEnoughBits else f) :=
        sim_ite (fun _ => sim_fail _) fun _ => hf
      exact hr t' h1
    | err e => exact .inl ⟨h1, rfl⟩
    | panic => exact .inl ⟨h1, rfl⟩
    | hang => exact .inl ⟨h1, rfl⟩
  · generalize readerHasSize k.src n t = x at h1 h2
    obtain ⟨o, t'⟩ := x
    simp only at h2
    subst h2
    right
    exact ⟨e, h1, .inr (.inl rfl)⟩

theorem hasSize_bind_simU (hk : Reads k d place failed) (n : Nat) {fs : M (US σ) β} {f : UM β} (hf : SimU place failed fs f) :
    SimU place failed (liftR (readerHasSize k.src n) >>= fun ok => if ¬ ok then M.fail .notEnoughBits else fs)
      (Mp4.liftR (Mp4.readerHasSize d n) >>= fun ok => if ¬ ok then M.fail .notEnoughBits else f) := by
  intro t ht
  rw [M.bind_run, M.bind_run]
  unfold liftR Mp4.liftR
  rw [show (abU place t).r = abR place t.r from rfl]
  rcases readerHasSize_sim hk.serves n t.r ht with ⟨h1, h2⟩ | ⟨e, h1, h2⟩
  · rw [h2]
    generalize readerHasSize k.src n t.r = x at h1 h2
    obtain ⟨o, t'⟩ := x
    cases o with
    | ok a =>
      have hr : SimU place failed (if ¬ a then M.fail .notEnoughBits else fs) (if ¬ a then M.fail .notEnoughBits else f) :=
        sim_ite (fun _ => sim_fail _) fun _ => hf
      exact hr { t with r := t' } h1
    | err e => exact .inl ⟨h1, rfl⟩
    | panic => exact .inl ⟨h1, rfl⟩
    | hang => exact .inl ⟨h1, rfl⟩
  · generalize readerHasSize k.src n t.r = x at h1 h2
    obtain ⟨o, t'⟩ := x
    simp only at h2
    subst h2
    right
    exact ⟨e, h1, .inr (.inl rfl)⟩

theorem hdlrOnReadName_sim (hk : Reads k d place failed) (n : Nat) (sv : SV) : Sim (abR place) (flR failed) (hdlrOnReadName k n sv) (Mp4.hdlrOnReadName d n sv) := by
  unfold hdlrOnReadName Mp4.hdlrOnReadName
  refine sim_ite (fun _ => sim_pure _) fun _ => ?_
  refine hasSize_bind_sim hk _ ?_
  refine sim_ite (fun _ => sim_panic) fun _ => ?_
  refine sim_bind (readFull_sim hk.serves _) fun _ => ?_
  exact sim_ite (fun _ => sim_pure _) fun _ => sim_pure _

theorem onRead_sim (hk : Reads k d place failed) (h : Hook) (name : String) (n : Nat) (sv : SV) :
    Sim (abR place) (flR failed) (onRead h k name n sv) (Mp4.onRead h d name n sv) := by
  unfold onRead Mp4.onRead
  cases h with
  | emsg =>
    simp only
    rw [hk.fuel]
    refine sim_ite (fun _ => sim_pure _) fun _ => sim_ite (fun _ => sim_pure _) fun _ => sim_ite (fun _ => ?_) fun _ => sim_pure _
    exact sim_bind (readStringZ_sim hk _ _) fun _ => sim_bind (readStringZ_sim hk _ _) fun _ => sim_pure _
  | hdlr =>
    simp only
    exact sim_ite (fun _ => hdlrOnReadName_sim hk n sv) fun _ => sim_pure _
  | avcc =>
    simp only
    exact sim_ite (fun _ => sim_pure _) fun _ => sim_pure _
  | none => exact sim_pure _

theorem arrLoop_sim {fs : Val → M (US σ) Val} {f : Val → UM Val} (h : ∀ x, SimU place failed (fs x) (f x)) : ∀ l, SimU place failed (arrLoop fs l) (Mp4.arrLoop f l)
  | [] => sim_pure _
  | c :: l => by
    unfold arrLoop Mp4.arrLoop
    exact sim_bind (h c) fun _ => sim_bind (arrLoop_sim h l) fun _ => sim_pure _

theorem sliceElem_sim (size8 : Nat) {fs : M (US σ) Val} {f : UM Val} (h : SimU place failed fs f) : SimU place failed (sliceElem size8 fs) (Mp4.sliceElem size8 f) := by
  unfold sliceElem Mp4.sliceElem
  refine sim_bind h fun _ => sim_get fun t => ?_
  exact sim_ite (fun _ => sim_fail _) fun _ => sim_pure _

theorem countLoop_sim (size8 : Nat) {fs : M (US σ) Val} {f : UM Val} (h : SimU place failed fs f) : ∀ n, SimU place failed (countLoop size8 fs n) (Mp4.countLoop size8 f n)
  | 0 => sim_pure _
  | n + 1 => by
    unfold countLoop Mp4.countLoop
    exact sim_bind (sliceElem_sim size8 h) fun _ => sim_bind (countLoop_sim size8 h n) fun _ => sim_pure _

theorem greedyLoop_sim (size8 : Nat) {fs : M (US σ) Val} {f : UM Val} (h : SimU place failed fs f) : ∀ n, SimU place failed (greedyLoop size8 fs n) (Mp4.greedyLoop size8 f n)
  | 0 => sim_hang
  | n + 1 => by
    unfold greedyLoop Mp4.greedyLoop
    refine sim_get fun t => sim_ite (fun _ => sim_pure _) fun _ => ?_
    exact sim_bind (sliceElem_sim size8 h) fun _ => sim_bind (greedyLoop_sim size8 h n) fun _ => sim_pure _

theorem byteSlice_sim (hk : Reads k d place failed) (n : Nat) : SimU place failed (byteSlice k n) (Mp4.byteSlice d n) := by
  unfold byteSlice Mp4.byteSlice
  refine hasSize_bind_simU hk _ ?_
  exact sim_bind (alloc_sim _) fun _ => sim_bind (liftR_sim (copyN_sim hk.serves hk.ask _)) fun _ => sim_bind (addR_sim _) fun _ => sim_pure _

theorem unmarshalSlice_sim (hk : Reads k d place failed) (size8 : Nat) (isByte : Bool) (fi : Field) {fs : M (US σ) Val} {f : UM Val} (h : SimU place failed fs f) :
    SimU place failed (unmarshalSlice k size8 isByte fi fs) (Mp4.unmarshalSlice d size8 isByte fi f) := by
  unfold unmarshalSlice Mp4.unmarshalSlice
  refine sim_get fun t => sim_ite (fun _ => sim_fail _) fun _ => sim_ite (fun _ => byteSlice_sim hk _) fun _ => ?_
  by_cases hc : fi.length = lengthUnlimited
  · rw [if_pos hc, if_pos hc]
    exact sim_bind (greedyLoop_sim size8 h _) fun _ => sim_pure _
  · rw [if_neg hc, if_neg hc]
    exact sim_bind (countLoop_sim size8 h _) fun _ => sim_pure _

theorem sizedStruct_sim (fi : Field) {ms : M (US σ) α} {m : UM α} (h : SimU place failed ms m) : SimU place failed (sizedStruct fi ms) (Mp4.sizedStruct fi m) := by
  intro t ht
  unfold sizedStruct Mp4.sizedStruct
  rw [show ({ abU place t with rbits := 0 } : USt) = abU place { t with rbits := 0 } from rfl]
  rcases h { t with rbits := 0 } ht with ⟨h1, h2⟩ | ⟨e, h1, h2⟩
  · rw [h2]
    generalize ms { t with rbits := 0 } = x at h1 h2
    obtain ⟨o, t'⟩ := x
    left
    cases o with
    | ok a =>
      simp only
      by_cases hc : t'.rbits ≠ fi.size
      · rw [if_pos hc, if_pos (show (abU place t').rbits ≠ fi.size from hc)]
        exact ⟨h1, rfl⟩
      · rw [if_neg hc, if_neg (show ¬ (abU place t').rbits ≠ fi.size from hc)]
        exact ⟨h1, rfl⟩
    | err e => exact ⟨h1, rfl⟩
    | panic => exact ⟨h1, rfl⟩
    | hang => exact ⟨h1, rfl⟩
  · generalize ms { t with rbits := 0 } = x at h1 h2
    obtain ⟨o, t'⟩ := x
    right
    rcases h2 with h2 | h2 | h2 <;> · simp only at h2; subst h2; exact ⟨e, h1, by simp [Reported]⟩

theorem structInternal_sim (size8 : Nat) (fi : Field) {ms : Nat → M (US σ) α} {m : Nat → UM α} (h : ∀ n, SimU place failed (ms n) (m n)) :
    SimU place failed (structInternal size8 fi ms) (Mp4.structInternal size8 fi m) := by
  unfold structInternal Mp4.structInternal
  exact sim_ite (fun _ => sizedStruct_sim fi (h _)) fun _ => h _

/-- The parameters of the call in memory. -/
def Env.mem (e : Env) (d : Bytes) : UEnv := ⟨d, e.ctx, e.size8, e.root, e.cfo, e.hook, e.supported⟩

mutual
theorem unmarshalV_sim (hk : Reads k d place failed) (e : Env) : ∀ (t : Ty) (fi : Field) (cur : Val),
    SimU place failed (unmarshalV k e t fi cur) (Mp4.unmarshalV (e.mem d) t fi cur)
  | .ptr t, fi, cur => by
    unfold unmarshalV Mp4.unmarshalV
    exact sim_bind (unmarshalV_sim hk e t fi _) fun _ => sim_pure _
  | .struct c fs, fi, cur => by
    unfold unmarshalV Mp4.unmarshalV
    cases cur with
    | struct sv =>
      simp only
      refine structInternal_sim _ fi fun n => ?_
      exact sim_bind (unmarshalFields_sim hk { e with size8 := n } false c fs sv) fun _ => sim_pure _
    | _ => exact sim_panic
  | .arr n t, fi, cur => by
    unfold unmarshalV Mp4.unmarshalV
    cases cur with
    | arr l =>
      simp only
      exact sim_bind (arrLoop_sim (fun x => unmarshalV_sim hk e t fi x) l) fun _ => sim_pure _
    | _ => exact sim_panic
  | .slice t, fi, cur => by
    unfold unmarshalV Mp4.unmarshalV
    exact unmarshalSlice_sim hk _ _ fi (unmarshalV_sim hk e t fi _)
  | .int w, fi, cur => by
    unfold unmarshalV Mp4.unmarshalV
    exact unmarshalInt_sim hk w fi
  | .uint w, fi, cur => by
    unfold unmarshalV Mp4.unmarshalV
    exact unmarshalUint_sim hk w fi
  | .bool, fi, cur => by
    unfold unmarshalV Mp4.unmarshalV
    exact unmarshalBool_sim hk fi
  | .str, fi, cur => by
    unfold unmarshalV Mp4.unmarshalV
    exact unmarshalString_sim hk _ fi
theorem unmarshalFields_sim (hk : Reads k d place failed) (e : Env) (top : Bool) (c : Option Cfo) : ∀ (fs : Fields) (cur : SV),
    SimU place failed (unmarshalFields k e top c fs cur) (Mp4.unmarshalFields (e.mem d) top c fs cur)
  | .nil, cur => by
    unfold unmarshalFields Mp4.unmarshalFields
    exact sim_pure _
  | .cons f t fs, cur => by
    unfold unmarshalFields Mp4.unmarshalFields
    simp only
    rw [show (e.mem d).ctx = e.ctx from rfl, show (e.mem d).cfo = e.cfo from rfl, show (e.mem d).root = e.root from rfl]
    generalize (if c.isSome = true then cur else if top = true then cur else e.root) = csv
    generalize hr : resolve (c.getD e.cfo) e.ctx csv f = r
    cases r with
    | none => exact sim_panic
    | some fi =>
      simp only
      refine sim_ite (fun _ => unmarshalFields_sim hk e top c fs cur) fun _ => sim_get fun t' => ?_
      have key : ∀ a : Nat × Bool × SV, SimU place failed
          (addR a.1 >>= fun _ => if a.2.1 then unmarshalFields k e top c fs a.2.2 else
            match a.2.2.get f.name with
            | none => M.panic
            | some x => unmarshalV k { e with root := if top then a.2.2 else e.root } t fi x >>= fun v =>
              if top ∧ f.name = "FullBox" ∧ ¬ e.supported (a.2.2.set f.name v).version then M.fail .unsupportedVersion
              else unmarshalFields k e top c fs (a.2.2.set f.name v))
          (Mp4.addR a.1 >>= fun _ => if a.2.1 then Mp4.unmarshalFields (e.mem d) top c fs a.2.2 else
            match a.2.2.get f.name with
            | none => M.panic
            | some x => Mp4.unmarshalV { e.mem d with root := if top then a.2.2 else e.root } t fi x >>= fun v =>
              if top ∧ f.name = "FullBox" ∧ ¬ e.supported (a.2.2.set f.name v).version then M.fail .unsupportedVersion
              else Mp4.unmarshalFields (e.mem d) top c fs (a.2.2.set f.name v)) := by
        intro a
        obtain ⟨rbits, override, cur'⟩ := a
        simp only
        refine sim_bind (addR_sim _) fun _ => sim_ite (fun _ => unmarshalFields_sim hk e top c fs cur') fun _ => ?_
        generalize SV.get cur' f.name = g
        cases g with
        | none => exact sim_panic
        | some x =>
          simp only
          refine sim_bind (unmarshalV_sim hk { e with root := if top then cur' else e.root } t fi x) fun v => ?_
          exact sim_ite (fun _ => sim_fail _) fun _ => unmarshalFields_sim hk e top c fs _
      by_cases htop : top = true
      · rw [if_pos htop, if_pos htop]
        exact sim_bind (liftR_sim (onRead_sim hk _ _ _ _)) key
      · rw [if_neg htop, if_neg htop]
        exact sim_bind (sim_pure _) key
end

theorem metaBefore_sim (hk : Reads k d place failed) (sv : SV) : Sim place failed (metaBefore k sv) (Mp4.metaBefore d sv) := by
  intro t ht
  unfold metaBefore
  rw [M.bind_run]
  have h := fillLoop_sim hk.serves (4 + k.fuel) 4 [] (by omega) t ht
  rw [show readFullS k 4 t = fillLoop k.src (4 + k.fuel) 4 [] t from rfl]
  rcases h with ⟨h1, h2⟩ | ⟨e, h1, h2⟩
  · generalize fillLoop k.src (4 + k.fuel) 4 [] t = x at h1 h2
    obtain ⟨o, t'⟩ := x
    simp only at h1 h2
    unfold fillMem at h2
    simp only [List.nil_append] at h2
    have hle : ((d.drop (place t)).take 4).length ≤ 4 := by rw [List.length_take]; omega
    by_cases hc : ((d.drop (place t)).take 4).length = 4
    · rw [if_pos hc] at h2
      injection h2 with h2 h3
      subst h2
      simp only
      rw [M.bind_run]
      have hb := hk.serves.back 4 t' (by omega) h1
      unfold seeking
      rcases hb with ⟨b1, b2, b3⟩ | ⟨e, b1, b2⟩
      · generalize k.src.back 4 t' = y at b1 b2 b3
        obtain ⟨z, t2⟩ := y
        simp only at b1 b2 b3
        subst b1
        simp only
        have hp : place t2 = place t := by omega
        left
        unfold Mp4.metaBefore
        simp only
        rw [if_neg (show ¬ ((d.drop (place t)).take 4).length = 0 by omega), if_neg (show ¬ ((d.drop (place t)).take 4).length < 4 by omega)]
        split
        · exact ⟨b3, by simp only [M.pure_run, hp]⟩
        · exact ⟨b3, by simp only [M.pure_run, hp]⟩
      · generalize k.src.back 4 t' = y at b1 b2
        obtain ⟨z, t2⟩ := y
        simp only at b1 b2
        subst b1
        right
        exact ⟨e, b2, .inl rfl⟩
    · rw [if_neg hc] at h2
      injection h2 with h2 h3
      subst h2
      left
      refine ⟨h1, ?_⟩
      unfold Mp4.metaBefore
      simp only
      rw [← h3]
      by_cases hz : ((d.drop (place t)).take 4).length = 0
      · rw [if_pos hz, if_pos (List.eq_nil_of_length_eq_zero hz), hz]
        rfl
      · rw [if_neg hz, if_pos (by omega), if_neg (fun x => hz (by rw [x]; rfl))]
  · generalize fillLoop k.src (4 + k.fuel) 4 [] t = x at h1 h2
    obtain ⟨o, t'⟩ := x
    right
    rcases h2 with h2 | h2 | h2 <;> · simp only at h2; subst h2; exact ⟨e, h1, by simp [Reported]⟩

theorem unmarshalBody_sim (hk : Reads k d place failed) (bd : BoxDef) (ctx : Ctx) (ps : Nat) (sv : SV) :
    Sim place failed (unmarshalBody k bd ctx ps sv) (Mp4.unmarshalBody bd d ctx ps sv) := by
  intro t ht
  unfold unmarshalBody Mp4.unmarshalBody
  rcases seeking_sim (want := fun p => p) hk.serves.tell t ht with ⟨h1, h2⟩ | ⟨e, h1, h2⟩
  · generalize seeking k.src.tell t = x at h1 h2
    obtain ⟨o, t'⟩ := x
    simp only at h1 h2
    injection h2 with h2 h3
    subst h2
    simp only
    have hu := unmarshalFields_sim hk (env bd ctx ps) true (some bd.cfo) bd.fields sv ⟨⟨t', 0#8, 0⟩, 0⟩ h1
    have hab : (⟨RSt.fresh (place t), 0⟩ : USt) = abU place ⟨⟨t', 0#8, 0⟩, 0⟩ := by
      unfold abU abR RSt.fresh
      simp only [h3]
    rw [hab, show bd.uenv d ctx ps = (env bd ctx ps).mem d from rfl]
    rcases hu with ⟨g1, g2⟩ | ⟨e, g1, g2⟩
    · rw [g2]
      generalize unmarshalFields k (env bd ctx ps) true (some bd.cfo) bd.fields sv ⟨⟨t', 0#8, 0⟩, 0⟩ = y at g1 g2
      obtain ⟨o2, u⟩ := y
      simp only at g1 g2 ⊢
      cases o2 with
      | ok sv' =>
        simp only
        rw [show (abU place u).rbits = u.rbits from rfl, show (abU place u).r.pos = place u.r.src from rfl]
        left
        split
        · exact ⟨g1, rfl⟩
        · split
          · exact ⟨g1, rfl⟩
          · exact ⟨g1, rfl⟩
      | err e =>
        by_cases he : e = .unsupportedVersion
        · subst he
          simp only
          rcases hk.serves.seek (place t) u.r.src g1 with ⟨i1, i2, i3⟩ | ⟨e, i1, i2⟩
          · left
            exact ⟨i3, by simp only [if_true, i2]⟩
          · right
            exact ⟨e, i2, .inr (.inr rfl)⟩
        · left
          simp only
          rw [if_neg he]
          refine ⟨g1, ?_⟩
          cases e <;> first | rfl | exact absurd rfl he
      | panic => left; exact ⟨g1, rfl⟩
      | hang => left; exact ⟨g1, rfl⟩
    · generalize unmarshalFields k (env bd ctx ps) true (some bd.cfo) bd.fields sv ⟨⟨t', 0#8, 0⟩, 0⟩ = y at g1 g2
      obtain ⟨o2, u⟩ := y
      right
      simp only at g1 g2
      have h0 : ∀ x, Reported e (.err x : Out (Nat × SV)) → ∃ e', failed (if x = .unsupportedVersion then ((.err .unsupportedVersion : Out (Nat × SV)), (k.src.seek (place t) u.r.src).2) else (.err x, u.r.src)).2 = some e' ∧
          Reported e' (if x = .unsupportedVersion then ((.err .unsupportedVersion : Out (Nat × SV)), (k.src.seek (place t) u.r.src).2) else (.err x, u.r.src)).1 := by
        intro x hx
        refine ⟨e, ?_⟩
        split
        · exact ⟨hk.serves.sticks _ _ _ g1, .inr (.inr rfl)⟩
        · exact ⟨g1, hx⟩
      rcases g2 with g2 | g2 | g2
      · subst g2; exact h0 e (.inl rfl)
      · subst g2; exact h0 _ (.inr (.inl rfl))
      · subst g2; exact h0 _ (.inr (.inr rfl))
  · generalize seeking k.src.tell t = x at h1 h2
    obtain ⟨o, t'⟩ := x
    right
    rcases h2 with h2 | h2 | h2 <;> · simp only at h2; subst h2; exact ⟨e, h1, by simp [Reported]⟩

theorem unmarshalBox_sim (hk : Reads k d place failed) (bd : BoxDef) (ctx : Ctx) (ps : Nat) (dst : SV) :
    Sim place failed (unmarshalBox k bd ctx ps dst) (Mp4.unmarshalBox bd d ctx ps dst) := by
  unfold unmarshalBox Mp4.unmarshalBox
  simp only
  by_cases hm : bd.metaHook = true
  · rw [if_pos hm, if_pos hm]
    refine sim_bind (metaBefore_sim hk _) fun a => ?_
    exact sim_ite (fun _ => sim_pure _) fun _ => unmarshalBody_sim hk bd ctx ps _
  · rw [if_neg hm, if_neg hm]
    exact unmarshalBody_sim hk bd ctx ps _

theorem unmarshalAny_ok {m : BoxMap} {t : BoxType} {ctx : Ctx} {box : BoxVal} (h : m.new t ctx = .ok box) (d : Bytes) (ps : Nat) :
    m.unmarshalAny d t ps ctx = (Mp4.unmarshalBox box.bd d ctx ps box.sv >>= fun a => pure (({ box with sv := a.2 } : BoxVal), a.1)) := by
  funext pos
  unfold BoxMap.unmarshalAny
  rw [h, M.bind_run]
  simp only
  generalize Mp4.unmarshalBox box.bd d ctx ps box.sv pos = x
  obtain ⟨o, p⟩ := x
  cases o <;> rfl

theorem unmarshalAny_error {m : BoxMap} {t : BoxType} {ctx : Ctx} {e : Err} (h : m.new t ctx = .error e) (d : Bytes) (ps : Nat) :
    m.unmarshalAny d t ps ctx = M.fail e := by
  funext pos
  unfold BoxMap.unmarshalAny
  rw [h]
  rfl

theorem unmarshalAny_sim (hk : Reads k d place failed) (m : BoxMap) (t : BoxType) (ps : Nat) (ctx : Ctx) :
    Sim place failed (unmarshalAny k m t ps ctx) (m.unmarshalAny d t ps ctx) := by
  unfold unmarshalAny
  rcases hx : m.new t ctx with e | box
  · rw [unmarshalAny_error hx]
    exact sim_fail _
  · rw [unmarshalAny_ok hx]
    exact sim_bind (unmarshalBox_sim hk box.bd ctx ps box.sv) fun a => sim_pure _

end Mp4.Src
