import Verif.Spec.Source

/-!
# Reading from a source compared with reading from memory
-/

namespace Mp4.Src

open Mp4 Mp4.Spec

variable {σ τ ρ α β : Type}

/-- The error that a failure of the source leads to: the error itself; or "not enough bits", if it was a seek in `readerHasSize`;
or `ErrUnsupportedBoxVersion`, if it was the seek that follows this. -/
def Reported (e : Err) (o : Out α) : Prop := o = .err e ∨ o = .err .notEnoughBits ∨ o = .err .unsupportedVersion

/-- `ms`, on a source, does the same as `m`, in memory, unless the source fails, which is then reported. -/
def Sim (ab : τ → ρ) (fl : τ → Option Err) (ms : M τ α) (m : M ρ α) : Prop := ∀ t, fl t = none →
  (fl (ms t).2 = none ∧ m (ab t) = ((ms t).1, ab (ms t).2)) ∨ ∃ e, fl (ms t).2 = some e ∧ Reported e (ms t).1

variable {ab : τ → ρ} {fl : τ → Option Err}

theorem sim_pure (a : α) : Sim ab fl (pure a) (pure a) := fun _ h => .inl ⟨h, rfl⟩
theorem sim_fail (e : Err) : Sim (α := α) ab fl (M.fail e) (M.fail e) := fun _ h => .inl ⟨h, rfl⟩
theorem sim_panic : Sim (α := α) ab fl M.panic M.panic := fun _ h => .inl ⟨h, rfl⟩
theorem sim_hang : Sim (α := α) ab fl M.hang M.hang := fun _ h => .inl ⟨h, rfl⟩

theorem sim_bind {ms : M τ α} {m : M ρ α} {fs : α → M τ β} {f : α → M ρ β} (h : Sim ab fl ms m) (hf : ∀ a, Sim ab fl (fs a) (f a)) :
    Sim ab fl (ms >>= fs) (m >>= f) := by
  intro t ht
  rw [M.bind_run, M.bind_run]
  rcases h t ht with ⟨h1, h2⟩ | ⟨e, h1, h2⟩
  · rw [h2]
    generalize ms t = x at h1 h2
    obtain ⟨o, t'⟩ := x
    cases o with
    | ok a => exact hf a t' h1
    | err e => exact .inl ⟨h1, rfl⟩
    | panic => exact .inl ⟨h1, rfl⟩
    | hang => exact .inl ⟨h1, rfl⟩
  · generalize ms t = x at h1 h2
    obtain ⟨o, t'⟩ := x
    right
    rcases h2 with h2 | h2 | h2 <;> · simp only at h2; subst h2; exact ⟨e, h1, by simp [Reported]⟩

theorem sim_ite {c : Prop} [Decidable c] {a b : M τ α} {a' b' : M ρ α} (h1 : c → Sim ab fl a a') (h2 : ¬ c → Sim ab fl b b') :
    Sim ab fl (if c then a else b) (if c then a' else b') := by
  by_cases h : c
  · rw [if_pos h, if_pos h]; exact h1 h
  · rw [if_neg h, if_neg h]; exact h2 h

/-- a computation that looks at the state -/
theorem sim_get {fs : τ → M τ β} {f : ρ → M ρ β} (hf : ∀ t, Sim ab fl (fs t) (f (ab t))) : Sim ab fl (M.get >>= fs) (M.get >>= f) := by
  intro t ht
  rw [M.bind_ok (M.get_run _), M.bind_ok (M.get_run _)]
  exact hf t t ht

theorem sim_modify {gs : τ → τ} {g : ρ → ρ} (h1 : ∀ t, ab (gs t) = g (ab t)) (h2 : ∀ t, fl (gs t) = fl t) :
    Sim ab fl (M.modify gs) (M.modify g) := by
  intro t ht
  left
  simp only [M.modify_run]
  exact ⟨by rw [h2, ht], by rw [h1]⟩

/-! ## The source -/

variable {k : Rdr σ} {d : Bytes} {place : σ → Nat} {failed : σ → Option Err}

/-- The bit reader in memory that corresponds to one on the source. -/
def abR (place : σ → Nat) (s : RS σ) : RSt := ⟨place s.src, s.octet, s.width⟩
/-- has its source failed? -/
def flR (failed : σ → Option Err) (s : RS σ) : Option Err := failed s.src
/-- The unmarshaller in memory that corresponds to one on the source. -/
def abU (place : σ → Nat) (s : US σ) : USt := ⟨abR place s.r, s.rbits⟩
/-- has its source failed? -/
def flU (failed : σ → Option Err) (s : US σ) : Option Err := failed s.r.src

theorem take_take_drop (d : Bytes) (p j n : Nat) :
    (d.drop p).take (j + n) = (d.drop p).take j ++ (d.drop (p + j)).take n := by
  rw [List.take_add, List.drop_drop]

theorem piece_length (d : Bytes) (p j : Nat) (h : p + j ≤ d.length) : ((d.drop p).take j).length = j := by
  rw [List.length_take, List.length_drop]; omega

/-- `io.ReadFull` on a `bytes.Reader`, with `got` read before -/
def fillMem (d : Bytes) (need : Nat) (got : Bytes) : PM Bytes := fun p =>
  let b := (d.drop p).take need
  if b.length = need then (.ok (got ++ b), p + need)
  else (.err (if got ++ b = [] then .eof else .unexpectedEOF), p + b.length)

theorem fillLoop_sim (hk : Serves k.src d place failed) : ∀ fuel need got, need ≤ fuel → Sim place failed (fillLoop k.src fuel need got) (fillMem d need got)
  | fuel, need, got, hf => by
    intro t ht
    unfold fillLoop
    by_cases h0 : need = 0
    · subst h0
      rw [if_pos rfl]
      left
      refine ⟨ht, ?_⟩
      unfold fillMem
      simp
    · rw [if_neg h0]
      cases fuel with
      | zero => omega
      | succ fuel =>
        simp only
        rcases hk.read need t (by omega) ht with ⟨j, a1, a2, a3, a4, a5, a6⟩ | ⟨a1, a2, a3, a4⟩ | ⟨e, a1, a2⟩
        · generalize k.src.read need t = x at a4 a5 a6
          obtain ⟨y, t'⟩ := x
          simp only at a4 a5 a6
          subst a4
          simp only
          rw [piece_length _ _ _ a3]
          have key : fillMem d (need - j) (got ++ (d.drop (place t)).take j) (place t') = fillMem d need got (place t) := by
            unfold fillMem
            have e1 : (d.drop (place t)).take need = (d.drop (place t)).take j ++ (d.drop (place t')).take (need - j) := by
              rw [a5, ← take_take_drop]; congr 1; omega
            have hl : ((d.drop (place t)).take need).length = j + ((d.drop (place t')).take (need - j)).length := by
              rw [e1, List.length_append, piece_length _ _ _ a3]
            simp only
            rw [e1, List.append_assoc]
            rw [← e1, hl]
            by_cases hc : ((d.drop (place t')).take (need - j)).length = need - j
            · rw [if_pos hc, if_pos (by omega), a5]; congr 1; omega
            · rw [if_neg hc, if_neg (show ¬ (j + ((d.drop (place t')).take (need - j)).length = need) from fun x => hc (by omega)), show place t' + ((d.drop (place t')).take (need - j)).length = place t + (j + ((d.drop (place t')).take (need - j)).length) by omega]
          rw [← key]
          exact fillLoop_sim hk fuel (need - j) _ (by omega) t' a6
        · generalize k.src.read need t = x at a2 a3 a4
          obtain ⟨y, t'⟩ := x
          simp only at a2 a3 a4
          subst a2
          simp only
          rw [if_neg (by simp; omega)]
          left
          refine ⟨a4, ?_⟩
          unfold fillMem
          have : (d.drop (place t)) = [] := List.drop_eq_nil_of_le a1
          simp only [this, List.take_nil, List.length_nil]
          rw [if_neg (by omega), a3]
          simp only [List.append_nil, and_true, Nat.add_zero]
          by_cases hg : got = []
          · subst hg; rfl
          · rw [if_neg hg, if_pos hg]
        · generalize k.src.read need t = x at a1 a2
          obtain ⟨y, t'⟩ := x
          simp only at a1 a2
          subst a1
          simp only
          rw [if_neg (by simp; omega)]
          right
          refine ⟨e, a2, .inl ?_⟩
          rw [if_neg (fun x => hk.notEOF _ (by rw [a2, x.2]))]

/-- `io.CopyN` from a `bytes.Reader`, with `got` read before -/
def copyMem (d : Bytes) (need : Nat) (got : Bytes) : PM Bytes := fun p =>
  let b := (d.drop p).take need
  if b.length = need then (.ok (got ++ b), p + need) else (.err .eof, p + b.length)

theorem copyLoop_sim (hk : Serves k.src d place failed) (ha : ∀ n, 0 < n → 0 < k.ask n ∧ k.ask n ≤ n) : ∀ fuel need got, need ≤ fuel →
    Sim place failed (copyLoop k.src k.ask fuel need got) (copyMem d need got)
  | fuel, need, got, hf => by
    intro t ht
    unfold copyLoop
    by_cases h0 : need = 0
    · subst h0
      rw [if_pos rfl]
      left
      refine ⟨ht, ?_⟩
      unfold copyMem
      simp
    · rw [if_neg h0]
      cases fuel with
      | zero => omega
      | succ fuel =>
        obtain ⟨ha1, ha2⟩ := ha need (by omega)
        simp only
        rcases hk.read (k.ask need) t ha1 ht with ⟨j, a1, a2, a3, a4, a5, a6⟩ | ⟨a1, a2, a3, a4⟩ | ⟨e, a1, a2⟩
        · generalize k.src.read (k.ask need) t = x at a4 a5 a6
          obtain ⟨y, t'⟩ := x
          simp only at a4 a5 a6
          subst a4
          simp only
          rw [piece_length _ _ _ a3]
          have key : copyMem d (need - j) (got ++ (d.drop (place t)).take j) (place t') = copyMem d need got (place t) := by
            unfold copyMem
            have e1 : (d.drop (place t)).take need = (d.drop (place t)).take j ++ (d.drop (place t')).take (need - j) := by
              rw [a5, ← take_take_drop]; congr 1; omega
            have hl : ((d.drop (place t)).take need).length = j + ((d.drop (place t')).take (need - j)).length := by
              rw [e1, List.length_append, piece_length _ _ _ a3]
            simp only
            rw [e1, List.append_assoc]
            rw [← e1, hl]
            by_cases hc : ((d.drop (place t')).take (need - j)).length = need - j
            · rw [if_pos hc, if_pos (by omega), a5]; congr 1; omega
            · rw [if_neg hc, if_neg (show ¬ (j + ((d.drop (place t')).take (need - j)).length = need) from fun x => hc (by omega)), show place t' + ((d.drop (place t')).take (need - j)).length = place t + (j + ((d.drop (place t')).take (need - j)).length) by omega]
          rw [← key]
          exact copyLoop_sim hk ha fuel (need - j) _ (by omega) t' a6
        · generalize k.src.read (k.ask need) t = x at a2 a3 a4
          obtain ⟨y, t'⟩ := x
          simp only at a2 a3 a4
          subst a2
          simp only
          rw [if_neg (by simp; omega)]
          left
          refine ⟨a4, ?_⟩
          unfold copyMem
          have : (d.drop (place t)) = [] := List.drop_eq_nil_of_le a1
          simp only [this, List.take_nil, List.length_nil]
          rw [if_neg (by omega), a3]
          simp only [Nat.add_zero]
        · generalize k.src.read (k.ask need) t = x at a1 a2
          obtain ⟨y, t'⟩ := x
          simp only at a1 a2
          subst a1
          simp only
          rw [if_neg (by simp; omega)]
          right
          exact ⟨e, a2, .inl rfl⟩

theorem copyNS_sim (hk : Serves k.src d place failed) (ha : ∀ n, 0 < n → 0 < k.ask n ∧ k.ask n ≤ n) (n : Nat) :
    Sim place failed (copyNS k n) (copyNP d n) := by
  have h := copyLoop_sim hk ha (n + k.fuel) n [] (by omega)
  unfold copyNS
  by_cases h0 : n = 0 ∨ 2 ^ 63 ≤ n
  · rw [if_pos h0]
    intro t ht
    left
    refine ⟨ht, ?_⟩
    unfold copyNP
    rw [if_pos h0]
    rfl
  · rw [if_neg h0]
    have : copyNP d n = copyMem d n [] := by
      funext p
      unfold copyNP copyMem
      rw [if_neg h0]
      simp only [List.nil_append]
      have : ((d.drop p).take n).length ≤ n := by rw [List.length_take]; omega
      by_cases hc : ((d.drop p).take n).length = n
      · rw [if_pos hc, if_neg (by omega), hc]
      · rw [if_neg hc, if_pos (by omega)]
    rw [this]
    exact h

theorem seeking_sim {f : σ → Except Err Nat × σ} {want : Nat → Nat} (h : ∀ s, failed s = none → SeekOk place failed (want (place s)) (f s)) :
    Sim place failed (seeking f) (fun p => (.ok (want p), want p)) := by
  intro t ht
  unfold seeking
  rcases h t ht with ⟨h1, h2, h3⟩ | ⟨e, h1, h2⟩
  · generalize f t = x at h1 h2 h3
    obtain ⟨y, t'⟩ := x
    simp only at h1 h2 h3
    subst h1
    left
    exact ⟨h3, by simp only [h2]⟩
  · generalize f t = x at h1 h2
    obtain ⟨y, t'⟩ := x
    simp only at h1 h2
    subst h1
    right
    exact ⟨e, h2, .inl rfl⟩

/-! ## The bit reader -/

theorem aligned_sim {ms : M σ α} {m : M Nat α} (h : Sim place failed ms m) : Sim (abR place) (flR failed) (aligned ms) (fun s =>
    if s.width ≠ 0 then (.err .bitAlignment, s) else match m s.pos with | (x, p) => (x, { s with pos := p })) := by
  intro t ht
  unfold aligned
  by_cases hw : t.width ≠ 0
  · rw [if_pos hw]
    left
    exact ⟨ht, if_pos hw⟩
  · rw [if_neg hw]
    unfold liftS
    rcases h t.src ht with ⟨h1, h2⟩ | ⟨e, h1, h2⟩
    · left
      generalize ms t.src = x at h1 h2
      obtain ⟨o, t'⟩ := x
      refine ⟨h1, ?_⟩
      refine (if_neg hw).trans ?_
      show (match m (place t.src) with | (x, p) => ((x, { abR place t with pos := p }) : Out α × RSt)) = _
      rw [h2]
      rfl
    · right
      generalize ms t.src = x at h1 h2
      obtain ⟨o, t'⟩ := x
      exact ⟨e, h1, h2⟩

theorem readBit_sim (hk : Serves k.src d place failed) : Sim (abR place) (flR failed) (readBit k.src) (Mp4.readBit d) := by
  intro t ht
  unfold readBit Mp4.readBit
  by_cases hw : t.width = 0
  · rw [if_pos hw, if_pos (show (abR place t).width = 0 from hw)]
    rcases hk.read 1 t.src (by omega) ht with ⟨j, a1, a2, a3, a4, a5, a6⟩ | ⟨a1, a2, a3, a4⟩ | ⟨e, a1, a2⟩
    · obtain rfl : j = 1 := by omega
      generalize k.src.read 1 t.src = x at a4 a5 a6
      obtain ⟨y, t'⟩ := x
      simp only at a4 a5 a6
      subst a4
      simp only
      rw [if_neg (by rw [piece_length _ _ _ a3]; simp)]
      left
      refine ⟨a6, ?_⟩
      have hlt : place t.src < d.length := by omega
      have hd1 : (d.drop (place t.src)).take 1 = [d[place t.src]] := by
        rw [List.drop_eq_getElem_cons hlt]; rfl
      rw [hd1]
      simp only [abR]
      rw [List.getElem?_eq_getElem hlt]
      simp only [List.headD_cons, a5]
    · generalize k.src.read 1 t.src = x at a2 a3 a4
      obtain ⟨y, t'⟩ := x
      simp only at a2 a3 a4
      subst a2
      left
      refine ⟨a4, ?_⟩
      simp only [abR]
      rw [List.getElem?_eq_none a1]
      simp only [a3]
    · generalize k.src.read 1 t.src = x at a1 a2
      obtain ⟨y, t'⟩ := x
      simp only at a1 a2
      subst a1
      right
      exact ⟨e, a2, .inl rfl⟩
  · rw [if_neg hw, if_neg (show ¬ (abR place t).width = 0 from hw)]
    left
    exact ⟨ht, rfl⟩

theorem readBitsLoop_sim (hk : Serves k.src d place failed) : ∀ n i data, Sim (abR place) (flR failed) (readBitsLoop k.src n i data) (Mp4.readBitsLoop d n i data)
  | 0, _, _ => sim_pure _
  | n + 1, i, data => by
    unfold readBitsLoop Mp4.readBitsLoop
    exact sim_bind (readBit_sim hk) fun bit => readBitsLoop_sim hk n (i + 1) _

theorem readBits_sim (hk : Serves k.src d place failed) (n : Nat) : Sim (abR place) (flR failed) (readBits k.src n) (Mp4.readBits d n) :=
  readBitsLoop_sim hk _ _ _

theorem readOnce_sim (hk : Serves k.src d place failed) : Sim (abR place) (flR failed) (aligned (readOnce k.src 1)) (Mp4.readSome d 1) := by
  have h1 : Sim place failed (readOnce k.src 1) (fun p => if d.length ≤ p then (.err .eof, p) else (.ok ((d.drop p).take 1), p + 1)) := by
    intro t ht
    unfold readOnce
    rcases hk.read 1 t (by omega) ht with ⟨j, a1, a2, a3, a4, a5, a6⟩ | ⟨a1, a2, a3, a4⟩ | ⟨e, a1, a2⟩
    · obtain rfl : j = 1 := by omega
      generalize k.src.read 1 t = x at a4 a5 a6
      obtain ⟨y, t'⟩ := x
      simp only at a4 a5 a6
      subst a4
      left
      exact ⟨a6, by simp only; rw [if_neg (by omega), a5]⟩
    · generalize k.src.read 1 t = x at a2 a3 a4
      obtain ⟨y, t'⟩ := x
      simp only at a2 a3 a4
      subst a2
      left
      exact ⟨a4, by simp only; rw [if_pos a1, a3]⟩
    · generalize k.src.read 1 t = x at a1 a2
      obtain ⟨y, t'⟩ := x
      simp only at a1 a2
      subst a1
      right
      exact ⟨e, a2, .inl rfl⟩
  have h2 := aligned_sim h1
  have : Mp4.readSome d 1 = (fun s : RSt =>
    if s.width ≠ 0 then (.err .bitAlignment, s) else match (if d.length ≤ s.pos then (.err .eof, s.pos) else (.ok ((d.drop s.pos).take 1), s.pos + 1) : Out Bytes × Nat) with
      | (x, p) => (x, { s with pos := p })) := by
    funext s
    unfold Mp4.readSome
    by_cases hw : s.width ≠ 0
    · rw [if_pos hw, if_pos hw]
    · rw [if_neg hw, if_neg hw]
      by_cases hp : d.length ≤ s.pos
      · rw [if_pos hp, if_pos hp]
      · rw [if_neg hp, if_neg hp]
        simp only
        rw [piece_length _ _ _ (by omega)]
  rw [this]
  exact h2

theorem readFull_sim (hk : Serves k.src d place failed) (n : Nat) : Sim (abR place) (flR failed) (readFull k n) (Mp4.readFull d n) := by
  have h := aligned_sim (fillLoop_sim hk (n + k.fuel) n [] (by omega))
  unfold readFull
  by_cases h0 : n = 0
  · subst h0
    rw [if_pos rfl]
    intro t ht
    left
    refine ⟨ht, ?_⟩
    unfold Mp4.readFull
    rw [if_pos rfl]
    rfl
  · rw [if_neg h0]
    have : Mp4.readFull d n = (fun s : RSt =>
      if s.width ≠ 0 then (.err .bitAlignment, s) else match fillMem d n [] s.pos with | (x, p) => (x, { s with pos := p })) := by
      funext s
      unfold Mp4.readFull fillMem
      rw [if_neg h0]
      by_cases hw : s.width ≠ 0
      · rw [if_pos hw, if_pos hw]
      · rw [if_neg hw, if_neg hw]
        simp only [List.nil_append]
        have hle : ((d.drop s.pos).take n).length ≤ n := by rw [List.length_take]; omega
        by_cases hz : ((d.drop s.pos).take n).length = 0
        · rw [if_pos hz, if_neg (by omega), if_pos (List.eq_nil_of_length_eq_zero hz), hz]
          rfl
        · rw [if_neg hz]
          by_cases hc : ((d.drop s.pos).take n).length = n
          · rw [if_neg (by omega), if_pos hc, hc]
          · rw [if_pos (by omega), if_neg hc, if_neg (fun x => hz (by rw [x]; rfl))]
    rw [this]
    exact h

theorem copyN_sim (hk : Serves k.src d place failed) (ha : ∀ n, 0 < n → 0 < k.ask n ∧ k.ask n ≤ n) (n : Nat) :
    Sim (abR place) (flR failed) (copyN k n) (Mp4.copyN d n) := by
  have h := aligned_sim (copyNS_sim hk ha n)
  unfold copyN
  by_cases h0 : n = 0 ∨ 2 ^ 63 ≤ n
  · rw [if_pos h0]
    intro t ht
    left
    refine ⟨ht, ?_⟩
    unfold Mp4.copyN
    rw [if_pos h0]
    rfl
  · rw [if_neg h0]
    have : Mp4.copyN d n = (fun s : RSt =>
      if s.width ≠ 0 then (.err .bitAlignment, s) else match copyNP d n s.pos with | (x, p) => (x, { s with pos := p })) := by
      funext s
      unfold Mp4.copyN copyNP
      rw [if_neg h0]
      by_cases hw : s.width ≠ 0
      · rw [if_pos hw, if_pos hw]
      · rw [if_neg hw, if_neg hw, if_neg h0]
        by_cases hc : ((d.drop s.pos).take n).length < n
        · rw [if_pos hc, if_pos hc]
        · rw [if_neg hc, if_neg hc]
    rw [this]
    exact h

theorem seekCurrent_sim (hk : Serves k.src d place failed) : Sim (abR place) (flR failed) (seekCurrent k.src) Mp4.seekCurrent := by
  have h := aligned_sim (seeking_sim (want := fun p => p) hk.tell)
  have : Mp4.seekCurrent = (fun s : RSt =>
      if s.width ≠ 0 then (.err .bitAlignment, s) else match ((.ok s.pos, s.pos) : Out Nat × Nat) with | (x, p) => (x, { s with pos := p })) := rfl
  rw [this]
  exact h

theorem seekReset_sim {f : σ → Except Err Nat × σ} {want : Nat} (h : ∀ s, failed s = none → SeekOk place failed want (f s)) :
    Sim (abR place) (flR failed) (seekReset f) (fun s => (.ok want, { s with pos := want, width := 0 })) := by
  intro t ht
  unfold seekReset
  rcases h t.src ht with ⟨h1, h2, h3⟩ | ⟨e, h1, h2⟩
  · generalize f t.src = x at h1 h2 h3
    obtain ⟨y, t'⟩ := x
    simp only at h1 h2 h3
    subst h1
    left
    exact ⟨h3, by simp only [abR, h2]⟩
  · generalize f t.src = x at h1 h2
    obtain ⟨y, t'⟩ := x
    simp only at h1 h2
    subst h1
    right
    exact ⟨e, h2, .inl rfl⟩

/-- `readerHasSize` says no if the source fails. -/
theorem readerHasSize_sim (hk : Serves k.src d place failed) (n : Nat) (t : RS σ) (ht : flR failed t = none) :
    (flR failed (readerHasSize k.src n t).2 = none ∧
      Mp4.readerHasSize d n (abR place t) = ((readerHasSize k.src n t).1, abR place (readerHasSize k.src n t).2)) ∨
    ∃ e, flR failed (readerHasSize k.src n t).2 = some e ∧ (readerHasSize k.src n t).1 = .ok false := by
  unfold readerHasSize Mp4.readerHasSize
  rcases seekCurrent_sim hk t ht with ⟨h1, h2⟩ | ⟨e, h1, h2⟩
  · rw [h2]
    generalize seekCurrent k.src t = x at h1 h2
    obtain ⟨o, t1⟩ := x
    simp only at h1 h2 ⊢
    cases o with
    | ok pre =>
      simp only
      have he := seekReset_sim (want := d.length) hk.toEnd t1 h1
      rw [show Mp4.seekEnd d (abR place t1) = (.ok d.length, { abR place t1 with pos := d.length, width := 0 }) from rfl]
      rcases he with ⟨g1, g2⟩ | ⟨e, g1, g2⟩
      · generalize seekReset k.src.toEnd t1 = y at g1 g2
        obtain ⟨o2, t2⟩ := y
        simp only at g1 g2 ⊢
        injection g2 with g2 g3
        subst g2
        simp only
        rw [g3]
        by_cases hc : sub64 d.length pre < n
        · rw [if_pos hc, if_pos hc]
          left
          exact ⟨g1, rfl⟩
        · rw [if_neg hc, if_neg hc]
          have hs := seekReset_sim (want := pre) (hk.seek pre) t2 g1
          rw [show Mp4.seekStart pre (abR place t2) = (.ok (), { abR place t2 with pos := pre, width := 0 }) from rfl]
          rcases hs with ⟨i1, i2⟩ | ⟨e, i1, i2⟩
          · generalize seekReset (k.src.seek pre) t2 = z at i1 i2
            obtain ⟨o3, t3⟩ := z
            simp only at i1 i2 ⊢
            injection i2 with i2 i3
            subst i2
            left
            exact ⟨i1, by simp only [i3]⟩
          · generalize seekReset (k.src.seek pre) t2 = z at i1 i2
            obtain ⟨o3, t3⟩ := z
            simp only at i1 i2 ⊢
            right
            rcases i2 with i2 | i2 | i2 <;> · subst i2; exact ⟨e, i1, rfl⟩
      · generalize seekReset k.src.toEnd t1 = y at g1 g2
        obtain ⟨o2, t2⟩ := y
        simp only at g1 g2 ⊢
        right
        rcases g2 with g2 | g2 | g2 <;> · subst g2; exact ⟨e, g1, rfl⟩
    | err e => left; exact ⟨h1, rfl⟩
    | panic => left; exact ⟨h1, rfl⟩
    | hang => left; exact ⟨h1, rfl⟩
  · generalize seekCurrent k.src t = x at h1 h2
    obtain ⟨o, t1⟩ := x
    simp only at h1 h2 ⊢
    right
    rcases h2 with h2 | h2 | h2 <;> · subst h2; exact ⟨e, h1, rfl⟩

end Mp4.Src
