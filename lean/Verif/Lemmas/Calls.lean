import Verif.Spec.Calls
import Verif.Props.Cover
import Verif.Lemmas.Forest

/-!
# Counting the calls of a handler

`scan` follows a record with a stack: for each box the handler is busy with, the number of times it has been opened.  It gives up when a
box is opened for the second time.  First: records of handlers that open boxes at most once are accepted.  Second: records that are
accepted are short.
-/

namespace Mp4

variable {S P V α β : Type} {d : Bytes} {m : BoxMap}

/-- follow the record -/
def scan : List Nat → List (Ev V) → Option (List Nat)
  | stk, [] => some stk
  | stk, .enter .. :: l => scan (0 :: stk) l
  | _ :: stk, .leave .. :: l => scan stk l
  | [], .leave .. :: _ => none
  | 0 :: stk, .openBox .. :: l => scan (1 :: stk) l
  | _, .openBox .. :: _ => none
  | stk, .closeBox .. :: l => scan stk l

theorem scan_append (stk : List Nat) (l l' : List (Ev V)) : scan stk (l ++ l') = (scan stk l).bind fun t => scan t l' := by
  induction l generalizing stk with
  | nil => rfl
  | cons e l ih =>
    cases e with
    | enter => simp only [List.cons_append, scan, ih]
    | leave =>
      cases stk with
      | nil => rfl
      | cons c stk => simp only [List.cons_append, scan, ih]
    | openBox =>
      match stk with
      | [] => rfl
      | 0 :: stk => simp only [List.cons_append, scan, ih]
      | (c + 1) :: stk => rfl
    | closeBox => simp only [List.cons_append, scan, ih]

/-! ## Records of handlers that open boxes at most once -/

/-- From a record after which the stack is `stk` to one after which it satisfies `Q`. -/
def Leads (stk : List Nat) (Q : List Nat → Prop) (x : TM S V α) : Prop :=
  ∀ s, scan [] s.log = some stk →
    match x s with
    | (.ok _, s') => ∃ t, scan [] s'.log = some t ∧ Q t
    | (.err _, s') => ∃ t, scan [] s'.log = some t ∧ Q t
    | (.panic, s') => scan [] s'.log ≠ none
    | (.hang, s') => scan [] s'.log ≠ none

theorem Leads.bind {stk : List Nat} {Q R : List Nat → Prop} {x : TM S V α} {k : α → TM S V β} (hx : Leads stk Q x) (hQ : ∀ t, Q t → R t)
    (hk : ∀ a t, Q t → Leads t R (k a)) : Leads stk R (x >>= k) := by
  intro s hs
  have := hx s hs
  rw [M.bind_run]
  cases e : x s with
  | mk o s' =>
    rw [e] at this
    cases o with
    | ok a => obtain ⟨t, h1, h2⟩ := this; exact hk a t h2 s' h1
    | err e => obtain ⟨t, h1, h2⟩ := this; exact ⟨t, h1, hQ t h2⟩
    | panic => exact this
    | hang => exact this

/-- with an error at hand as a value, the stack need not be as it is to be at the end -/
theorem Leads.bind_try {stk : List Nat} {Q R : List Nat → Prop} {x : TM S V α} {k : Except Err α → TM S V β} (hx : Leads stk Q x)
    (hk : ∀ a t, Q t → Leads t R (k a)) : Leads stk R (tryM x >>= k) := by
  intro s hs
  have := hx s hs
  cases e : x s with
  | mk o s' =>
    rw [e] at this
    cases o with
    | ok a => rw [M.bind_ok (show tryM x s = (.ok (.ok a), s') by unfold tryM; rw [e])]; obtain ⟨t, h1, h2⟩ := this; exact hk _ t h2 s' h1
    | err r => rw [M.bind_ok (show tryM x s = (.ok (.error r), s') by unfold tryM; rw [e])]; obtain ⟨t, h1, h2⟩ := this; exact hk _ t h2 s' h1
    | panic => rw [M.bind_panic (show tryM x s = (.panic, s') by unfold tryM; rw [e])]; exact this
    | hang => rw [M.bind_hang (show tryM x s = (.hang, s') by unfold tryM; rw [e])]; exact this

/-- does not touch the record -/
def Silent (x : TM S V α) : Prop := ∀ s, (x s).2.log = s.log

theorem Silent.leads {stk : List Nat} {Q : List Nat → Prop} {x : TM S V α} (h : Silent x) (hq : Q stk) : Leads stk Q x := by
  intro s hs
  have hl := h s
  cases e : x s with
  | mk o s' =>
    rw [e] at hl
    simp only at hl
    rw [← hl] at hs
    cases o with
    | ok a => exact ⟨stk, hs, hq⟩
    | err r => exact ⟨stk, hs, hq⟩
    | panic => simp [hs]
    | hang => simp [hs]

theorem Silent.liftP (x : PM α) : Silent (Mp4.liftP x : TM S V α) := fun _ => rfl
theorem Silent.pure (a : α) : Silent (Pure.pure a : TM S V α) := fun _ => rfl
theorem Silent.fail (e : Err) : Silent (M.fail e : TM S V α) := fun _ => rfl
theorem Silent.get : Silent (M.get : TM S V (TSt S V)) := fun _ => rfl
theorem Silent.ofExcept (r : Except Err α) : Silent (Mp4.ofExcept r : TM S V α) := by cases r <;> exact fun _ => rfl

theorem Leads.emit {stk t : List Nat} {Q : List Nat → Prop} {e : Ev V} (h : scan stk [e] = some t) (hq : Q t) :
    Leads stk Q (Mp4.emit e : TM S V Unit) := by
  intro s hs
  refine ⟨t, ?_, hq⟩
  simp only
  rw [scan_append, hs]
  exact h

/-- stays where it is -/
abbrev Stays (x : TM S V α) : Prop := ∀ stk, Leads stk (· = stk) x

theorem leads_runProg {path : List BoxType} {bi : BoxInfo} {children : Nat → P → TM S V (List V)} (hch : ∀ co p, Stays (children co p)) :
    ∀ (pr : Prog S P V) (c : Nat), pr.AtMost (1 - c) → ∀ (co : Nat) (stk : List Nat),
      Leads (c :: stk) (fun t => ∃ c', t = c' :: stk) (runProg m d path bi children pr co) := by
  intro pr
  induction pr with
  | ret v => intro c _ co stk; exact (Silent.pure v).leads ⟨c, rfl⟩
  | err e => intro c _ co stk; exact (Silent.fail e).leads ⟨c, rfl⟩
  | get k ih =>
    intro c h co stk
    rw [runProg]
    refine Leads.bind (Q := (· = c :: stk)) (Silent.get.leads rfl) (fun t e => ⟨c, e⟩) ?_
    rintro a t rfl
    exact ih _ c (by cases c <;> exact h _) co stk
  | set s k ih =>
    intro c h co stk
    rw [runProg]
    refine Leads.bind (Q := (· = c :: stk)) (Silent.leads (fun _ => rfl) rfl) (fun t e => ⟨c, e⟩) ?_
    rintro a t rfl
    exact ih c (by cases c <;> exact h) co stk
  | stream mv k ih =>
    intro c h co stk
    rw [runProg]
    refine Leads.bind (Q := (· = c :: stk)) (Silent.get.leads rfl) (fun t e => ⟨c, e⟩) ?_
    rintro a t rfl
    refine Leads.bind (Q := (· = c :: stk)) (Silent.leads (fun _ => rfl) rfl) (fun t e => ⟨c, e⟩) ?_
    rintro b t rfl
    exact ih _ c (by cases c <;> exact h _) co stk
  | readPayload k ih =>
    intro c h co stk
    rw [runProg]
    refine Leads.bind_try (Q := (· = c :: stk)) ((Silent.liftP _).leads rfl) ?_
    rintro (e | ⟨box, n⟩) t rfl
    · exact ih _ c (by cases c <;> exact h _) co stk
    · exact ih _ c (by cases c <;> exact h _) _ stk
  | readData w k ih =>
    intro c h co stk
    rw [runProg]
    refine Leads.bind (Q := (· = c :: stk)) ((Silent.liftP _).leads rfl) (fun t e => ⟨c, e⟩) ?_
    rintro ⟨r, b⟩ t rfl
    exact ih _ _ c (by cases c <;> exact h _ _) co stk
  | expand q k ih =>
    intro c h co stk
    rw [runProg]
    cases c with
    | succ c => simp only [Nat.reduceSubDiff, Nat.zero_sub] at h; exact h.elim
    | zero =>
      have h0 : ∀ r, (k r).AtMost 0 := h
      have hmono : ∀ r, (k r).AtMost 1 := fun r => atMost_mono (h0 r)
      refine Leads.bind_try (Q := (· = 0 :: stk)) ((Silent.liftP _).leads rfl) ?_
      rintro (e | co') t rfl
      · exact ih _ 0 (hmono _) co stk
      · refine Leads.bind (Q := (· = 1 :: stk)) (Leads.emit rfl rfl) (fun t e => ⟨1, e⟩) ?_
        rintro _ t rfl
        refine Leads.bind_try (Q := (· = 1 :: stk)) (hch co' q _) ?_
        rintro r t rfl
        refine Leads.bind (Q := (· = 1 :: stk)) (Leads.emit rfl rfl) (fun t e => ⟨1, e⟩) ?_
        rintro _ t rfl
        exact ih r 1 (h0 r) co' stk
where
  atMost_mono {pr : Prog S P V} (h : pr.AtMost 0) : pr.AtMost 1 := by
    induction pr with
    | ret v => trivial
    | err e => trivial
    | get k ih => exact fun s => ih s (h s)
    | set s k ih => exact ih h
    | stream mv k ih => exact fun s => ih s (h s)
    | readPayload k ih => exact fun s => ih s (h s)
    | readData w k ih => exact fun r b => ih r b (h r b)
    | expand q k ih => exact h.elim

theorem stays_fromInternal {h : Handler S P V} (hh : ExpandsOnce h) {rec : BoxInfo → Nat → List BoxType → Ctx → P → TM S V (List V)}
    (hrec : ∀ par total path ctx p, Stays (rec par total path ctx p)) (parent : Option BoxInfo) (bi : BoxInfo) (path : List BoxType) (p : P) :
    Stays (fromInternal m d h rec parent bi path p) := by
  intro stk
  unfold fromInternal
  refine Leads.bind (Q := (· = stk)) ((Silent.liftP _).leads rfl) (fun _ => id) ?_
  rintro _ t rfl
  refine Leads.bind (Q := (· = t)) ((Silent.liftP _).leads rfl) (fun _ => id) ?_
  rintro bi1 t rfl
  refine Leads.bind (Q := (· = t)) ((Silent.liftP _).leads rfl) (fun _ => id) ?_
  rintro bi2 t rfl
  intro s hs
  have e3 : (emit (.enter parent (path ++ [bi2.type]) bi2) : TM S V Unit) s = (.ok (), { s with log := s.log ++ [.enter parent (path ++ [bi2.type]) bi2] }) := rfl
  rw [M.bind_ok e3]
  refine Leads.bind_try (stk := 0 :: t) (Q := fun t' => ∃ c', t' = c' :: t) (R := (· = t))
    (leads_runProg (fun co p => hrec _ _ _ _ _) _ 0 (hh _) 0 t) ?_ _ (by simp only; rw [scan_append, hs]; rfl)
  rintro r _ ⟨c, rfl⟩
  refine Leads.bind (Q := (· = t)) (Leads.emit rfl rfl) (fun _ => id) ?_
  rintro _ t rfl
  refine Leads.bind (Q := (· = t)) ((Silent.ofExcept _).leads rfl) (fun _ => id) ?_
  rintro v t rfl
  refine Leads.bind (Q := (· = t)) ((Silent.liftP _).leads rfl) (fun _ => id) ?_
  rintro _ t rfl
  exact (Silent.pure _).leads rfl

theorem stays_readStructure {h : Handler S P V} (hh : ExpandsOnce h) : ∀ (f : Nat) (parent : Option BoxInfo) (total : Nat) (isRoot : Bool)
    (path : List BoxType) (ctx : Ctx) (p : P), Stays (readStructure m d h f parent total isRoot path ctx p) := by
  intro f
  induction f with
  | zero => intro parent total isRoot path ctx p stk s hs; simp [readStructure, M.hang, hs]
  | succ f ih =>
    intro parent total isRoot path ctx p stk
    rw [readStructure]
    split
    · refine Leads.bind_try (Q := (· = stk)) ((Silent.liftP _).leads rfl) ?_
      rintro (e | bi) t rfl
      · simp only
        split
        · exact (Silent.pure _).leads rfl
        · exact (Silent.fail _).leads rfl
      · simp only
        split
        · exact (Silent.fail _).leads rfl
        · refine Leads.bind (Q := (· = t)) (stays_fromInternal hh (fun par total path ctx p => ih (some par) total false path ctx p) _ _ _ _ t) (fun _ => id) ?_
          rintro ⟨v, bi'⟩ t rfl
          refine Leads.bind (Q := (· = t)) (ih _ _ _ _ _ _ t) (fun _ => id) ?_
          rintro vs t rfl
          exact (Silent.pure _).leads rfl
    · split
      · exact (Silent.fail _).leads rfl
      · exact (Silent.pure _).leads rfl

/-- The record of a traversal with a handler that expands boxes at most once is accepted. -/
theorem once_scan {h : Handler S P V} (hh : ExpandsOnce h) (f : Nat) (p : P) (pos : Nat) (s : S) :
    scan [] (readBoxStructure m d h f p ⟨pos, s, []⟩).2.log ≠ none := by
  have hl : Leads [] (fun t => t = []) (readBoxStructure m d h f p) := by
    unfold readBoxStructure
    refine Leads.bind (Q := (· = [])) ((Silent.liftP _).leads rfl) (fun _ => id) ?_
    rintro _ t rfl
    exact stays_readStructure hh _ _ _ _ _ _ _ _
  have := hl ⟨pos, s, []⟩ rfl
  cases e : readBoxStructure m d h f p ⟨pos, s, []⟩ with
  | mk o s' =>
    rw [e] at this
    cases o with
    | ok a => obtain ⟨t, h1, -⟩ := this; simp [h1]
    | err r => obtain ⟨t, h1, -⟩ := this; simp [h1]
    | panic => exact this
    | hang => exact this

/-! ## Records that are accepted are short -/

/-- a part of a record that ends where it began leaves the stack as it was -/
theorem tr_balanced {r : Run} {L : List (Ev V)} {o : Out (List V)} (h : Tr d r L o) : o ≠ .hang →
    match r with
    | .row .. => ∀ stk t, scan stk L = some t → t = stk
    | .body .. => ∀ c stk t, scan (c :: stk) L = some t → ∃ c', c ≤ c' ∧ t = c' :: stk := by
  induction h with
  | fuel => intro h; exact absurd rfl h
  | over => intro _ stk t h; simpa [scan, eq_comm] using h
  | stop hb h ih =>
    intro _ stk t hs
    simp only [scan, scan_append] at hs
    obtain ⟨t', h1, h2⟩ := Option.bind_eq_some_iff.1 hs
    obtain ⟨c', -, rfl⟩ := ih (by simp) _ _ _ h1
    simpa [scan, eq_comm] using h2
  | cut hb h ih => intro h; exact absurd rfl h
  | noEnd hb h hneg ih =>
    intro _ stk t hs
    simp only [scan, scan_append] at hs
    obtain ⟨t', h1, h2⟩ := Option.bind_eq_some_iff.1 hs
    obtain ⟨c', -, rfl⟩ := ih (by simp) _ _ _ h1
    simpa [scan, eq_comm] using h2
  | next hb h h' ih ih' =>
    rename_i o
    intro ho stk t hs
    simp only [scan, scan_append] at hs
    obtain ⟨t', h1, h2⟩ := Option.bind_eq_some_iff.1 hs
    obtain ⟨c', -, rfl⟩ := ih (by simp) _ _ _ h1
    exact ih' (by rintro rfl; exact ho rfl) _ _ h2
  | ret => intro _ c stk t h; exact ⟨c, Nat.le_refl _, by simpa [scan, eq_comm] using h⟩
  | fail => intro _ c stk t h; exact ⟨c, Nat.le_refl _, by simpa [scan, eq_comm] using h⟩
  | hang h => intro h; exact absurd rfl h
  | expand hn h h' ih ih' =>
    intro ho c stk t hs
    cases c with
    | succ c => simp [scan] at hs
    | zero =>
      simp only [scan, scan_append] at hs
      obtain ⟨t', h1, h2⟩ := Option.bind_eq_some_iff.1 hs
      rw [ih (by simp) _ _ h1] at h2
      obtain ⟨c', h3, h4⟩ := ih' ho _ _ _ h2
      exact ⟨c', by omega, h4⟩
  | expandErr hn h h' ih ih' =>
    intro ho c stk t hs
    cases c with
    | succ c => simp [scan] at hs
    | zero =>
      simp only [scan, scan_append] at hs
      obtain ⟨t', h1, h2⟩ := Option.bind_eq_some_iff.1 hs
      rw [ih (by simp) _ _ h1] at h2
      obtain ⟨c', h3, h4⟩ := ih' ho _ _ _ h2
      exact ⟨c', by omega, h4⟩
  | expandCut hn h ih => intro h; exact absurd rfl h

/-- all boxes the handler is called for are regular -/
def AllRegular (L : List (Ev V)) : Prop := ∀ parent path bi, Ev.enter parent path bi ∈ L → Props.Regular bi

theorem AllRegular.of {L L' : List (Ev V)} (h : AllRegular L) (hs : ∀ x ∈ L', x ∈ L) : AllRegular L' :=
  fun a b c hm => h a b c (hs _ hm)

theorem bind_ne_none {o : Option α} {k : α → Option β} (h : o.bind k ≠ none) : ∃ a, o = some a ∧ k a ≠ none := by
  cases o with
  | none => exact absurd rfl h
  | some a => exact ⟨a, rfl, h⟩

/-- The number of calls. -/
theorem tr_calls (hd : d.length ≤ maxAlloc) {r : Run} {L : List (Ev V)} {o : Out (List V)} (h : Tr d r L o) : AllRegular L →
    match r with
    | .row _ _ total isRoot _ _ pos => total < U64 → (isRoot = true ∨ pos + total < U64) → ∀ stk, scan stk L ≠ none →
        8 * (enters L).length ≤ (if isRoot then d.length else min d.length (pos + total)) - pos
    | .body _ _ bi => HeaderAt d bi → Props.Regular bi → ∀ c stk, scan (c :: stk) L ≠ none →
        (c = 0 → 8 * (enters L).length ≤ min d.length (bi.offset + bi.size) - (bi.offset + bi.headerSize)) ∧ (c ≠ 0 → enters L = []) := by
  have hchild : ∀ {bi : BoxInfo} {n : Nat}, HeaderAt d bi → Props.Regular bi → PayloadN d bi n →
      sub64 (add64 bi.offset bi.size) (bi.offset + bi.headerSize + n) < U64 ∧
      bi.offset + bi.headerSize + n + sub64 (add64 bi.offset bi.size) (bi.offset + bi.headerSize + n) = bi.offset + bi.size := by
    intro bi n hb hr hn
    have h1 := payloadN_bound hd hb.inside hn
    have h2 := hr.1
    have h3 := hr.2
    have h4 := hb.lt
    simp only [sub64, add64, U64, maxAlloc] at *
    omega
  induction h with
  | fuel => intro _ _ _ stk _; simp [enters]
  | over => intro _ _ _ stk _; simp [enters]
  | stop hb h ih =>
    rename_i f parent total isRoot path ctx pos bi L e
    intro hr ht hp stk hs
    simp only [scan, scan_append] at hs
    obtain ⟨t', h1, h2⟩ := bind_ne_none hs
    have hreg := hr _ _ _ List.mem_cons_self
    have := (ih (hr.of fun x hx => by simp [hx]) hb.hdr hreg 0 stk (by simp [h1])).1 rfl
    have e1 := hb.offset
    have e2 := hb.hdr.hdr
    have e3 := hb.hdr.inside
    have e4 := hb.fit
    have e5 := hreg.1
    have e6 := hreg.2
    simp only [enters, enters_append, List.length_cons, List.length_append, List.length_nil]
    cases isRoot <;> simp at e4 hp ⊢ <;> omega
  | cut hb h ih =>
    rename_i f parent total isRoot path ctx pos bi L
    intro hr ht hp stk hs
    simp only [scan] at hs
    have hreg := hr _ _ _ List.mem_cons_self
    have := (ih (hr.of fun x hx => by simp [hx]) hb.hdr hreg 0 stk hs).1 rfl
    have e1 := hb.offset
    have e2 := hb.hdr.hdr
    have e3 := hb.hdr.inside
    have e4 := hb.fit
    have e5 := hreg.1
    have e6 := hreg.2
    simp only [enters, List.length_cons]
    cases isRoot <;> simp at e4 hp ⊢ <;> omega
  | noEnd hb h hneg ih =>
    rename_i f parent total isRoot path ctx pos bi L v
    intro hr ht hp stk hs
    simp only [scan, scan_append] at hs
    obtain ⟨t', h1, h2⟩ := bind_ne_none hs
    have hreg := hr _ _ _ List.mem_cons_self
    have := (ih (hr.of fun x hx => by simp [hx]) hb.hdr hreg 0 stk (by simp [h1])).1 rfl
    have e1 := hb.offset
    have e2 := hb.hdr.hdr
    have e3 := hb.hdr.inside
    have e4 := hb.fit
    have e5 := hreg.1
    have e6 := hreg.2
    simp only [enters, enters_append, List.length_cons, List.length_append, List.length_nil]
    cases isRoot <;> simp at e4 hp ⊢ <;> omega
  | next hb h h' ih ih' =>
    rename_i f parent total isRoot path ctx pos bi L v L' o
    intro hr ht hp stk hs
    simp only [scan, scan_append] at hs
    obtain ⟨t', h1, h2⟩ := bind_ne_none hs
    obtain ⟨c', -, rfl⟩ := tr_balanced h (by simp) _ _ _ h1
    have hreg := hr _ _ _ List.mem_cons_self
    have := (ih (hr.of fun x hx => by simp [hx]) hb.hdr hreg 0 stk (by simp [h1])).1 rfl
    have e1 := hb.offset
    have e2 := hb.hdr.hdr
    have e3 := hb.hdr.inside
    have e4 := hb.fit
    have e5 := hreg.1
    have e6 := hreg.2
    have e7 := hb.hdr.lt
    have hend : (bi.offset + bi.size) % U64 = bi.offset + bi.size := Nat.mod_eq_of_lt e6
    have hrest := ih' (hr.of fun x hx => by simp [hx]) (Nat.mod_lt _ (by decide)) (by
      cases isRoot
      · right
        simp at e4 hp
        rw [hend]
        simp only [sub64, U64] at *
        omega
      · exact .inl rfl) stk h2
    rw [hend] at hrest
    simp only [enters, enters_append, List.length_cons, List.length_append]
    cases isRoot
    · simp at e4 hp hrest ⊢
      simp only [sub64, U64] at *
      omega
    · simp at hrest ⊢
      omega
  | ret => intro _ _ _ c stk _; simp [enters]
  | fail => intro _ _ _ c stk _; simp [enters]
  | hang h => intro _ _ _ c stk _; simp [enters]
  | expand hn h h' ih ih' =>
    intro hr hb hreg c stk hs
    cases c with
    | succ c => simp [scan] at hs
    | zero =>
      refine ⟨fun _ => ?_, fun h => absurd rfl h⟩
      simp only [scan, scan_append] at hs
      obtain ⟨t', h1, h2⟩ := bind_ne_none hs
      have := tr_balanced h (by simp) _ _ h1
      subst this
      obtain ⟨g1, g2⟩ := hchild hb hreg hn
      have hrow := ih (hr.of fun x hx => by simp [hx]) g1 (.inr (by rw [g2]; exact hreg.2)) (1 :: stk) (by simp [h1])
      have hrest := (ih' (hr.of fun x hx => by simp [hx]) hb hreg 1 stk h2).2 (by decide)
      rw [g2] at hrow
      simp only [enters, enters_append, hrest, List.append_nil]
      simp at hrow
      omega
  | expandErr hn h h' ih ih' =>
    intro hr hb hreg c stk hs
    cases c with
    | succ c => simp [scan] at hs
    | zero =>
      refine ⟨fun _ => ?_, fun h => absurd rfl h⟩
      simp only [scan, scan_append] at hs
      obtain ⟨t', h1, h2⟩ := bind_ne_none hs
      have := tr_balanced h (by simp) _ _ h1
      subst this
      obtain ⟨g1, g2⟩ := hchild hb hreg hn
      have hrow := ih (hr.of fun x hx => by simp [hx]) g1 (.inr (by rw [g2]; exact hreg.2)) (1 :: stk) (by simp [h1])
      have hrest := (ih' (hr.of fun x hx => by simp [hx]) hb hreg 1 stk h2).2 (by decide)
      rw [g2] at hrow
      simp only [enters, enters_append, hrest, List.append_nil]
      simp at hrow
      omega
  | expandCut hn h ih =>
    intro hr hb hreg c stk hs
    cases c with
    | succ c => simp [scan] at hs
    | zero =>
      refine ⟨fun _ => ?_, fun h => absurd rfl h⟩
      simp only [scan] at hs
      obtain ⟨g1, g2⟩ := hchild hb hreg hn
      have hrow := ih (hr.of fun x hx => by simp [hx]) g1 (.inr (by rw [g2]; exact hreg.2)) (1 :: stk) hs
      rw [g2] at hrow
      simp only [enters]
      simp at hrow
      omega

/-- The depth of calls, for every handler. -/
theorem tr_depth {r : Run} {L : List (Ev V)} {o : Out (List V)} (h : Tr d r L o) : AllRegular L →
    match r with
    | .row _ _ _ _ path _ pos => 8 * path.length ≤ pos → ∀ x ∈ enters L, 8 * x.2.1.length ≤ x.2.2.offset + 8 ∧ x.2.2.offset + 8 ≤ d.length
    | .body _ path bi => HeaderAt d bi → Props.Regular bi → 8 * path.length ≤ bi.offset + 8 →
        ∀ x ∈ enters L, 8 * x.2.1.length ≤ x.2.2.offset + 8 ∧ x.2.2.offset + 8 ≤ d.length := by
  have hin : ∀ {total isRoot path ctx pos bi}, BoxAt d total isRoot path ctx pos bi → 8 * path.length ≤ pos →
      8 * (path ++ [bi.type]).length ≤ bi.offset + 8 ∧ bi.offset + 8 ≤ d.length := by
    intro total isRoot path ctx pos bi hb hp
    have h1 := hb.offset
    have h2 := hb.hdr.hdr
    have h3 := hb.hdr.inside
    simp only [List.length_append, List.length_cons, List.length_nil]
    omega
  have hdn : ∀ {bi : BoxInfo} {n : Nat} {path : List BoxType}, HeaderAt d bi → 8 * path.length ≤ bi.offset + 8 →
      8 * path.length ≤ bi.offset + bi.headerSize + n := by
    intro bi n path hb hp
    have h2 := hb.hdr
    omega
  induction h with
  | fuel => intro _ _ x hx; simp [enters] at hx
  | over => intro _ _ x hx; simp [enters] at hx
  | stop hb h ih =>
    intro hr hp x hx
    have hreg := hr _ _ _ List.mem_cons_self
    simp only [enters, enters_append, List.append_nil, List.mem_cons] at hx
    rcases hx with rfl | hx
    · exact hin hb hp
    · exact ih (hr.of fun x hx => by simp [hx]) hb.hdr hreg (hin hb hp).1 x hx
  | cut hb h ih =>
    intro hr hp x hx
    have hreg := hr _ _ _ List.mem_cons_self
    simp only [enters, List.mem_cons] at hx
    rcases hx with rfl | hx
    · exact hin hb hp
    · exact ih (hr.of fun x hx => by simp [hx]) hb.hdr hreg (hin hb hp).1 x hx
  | noEnd hb h hneg ih =>
    intro hr hp x hx
    have hreg := hr _ _ _ List.mem_cons_self
    simp only [enters, enters_append, List.append_nil, List.mem_cons] at hx
    rcases hx with rfl | hx
    · exact hin hb hp
    · exact ih (hr.of fun x hx => by simp [hx]) hb.hdr hreg (hin hb hp).1 x hx
  | next hb h h' ih ih' =>
    intro hr hp x hx
    have hreg := hr _ _ _ List.mem_cons_self
    simp only [enters, enters_append, List.mem_cons, List.mem_append] at hx
    rcases hx with rfl | hx | hx
    · exact hin hb hp
    · exact ih (hr.of fun x hx => by simp [hx]) hb.hdr hreg (hin hb hp).1 x hx
    · refine ih' (hr.of fun x hx => by simp [hx]) ?_ x hx
      rw [show ∀ a : Nat, a % U64 = a % 2 ^ 64 from fun _ => rfl, Nat.mod_eq_of_lt hreg.2, hb.offset]
      omega
  | ret => intro _ _ _ _ x hx; simp [enters] at hx
  | fail => intro _ _ _ _ x hx; simp [enters] at hx
  | hang h => intro _ _ _ _ x hx; simp [enters] at hx
  | expand hn h h' ih ih' =>
    intro hr hb hreg hp x hx
    simp only [enters, enters_append, List.mem_append] at hx
    rcases hx with hx | hx
    · exact ih (hr.of fun x hx => by simp [hx]) (hdn hb hp) x hx
    · exact ih' (hr.of fun x hx => by simp [hx]) hb hreg hp x hx
  | expandErr hn h h' ih ih' =>
    intro hr hb hreg hp x hx
    simp only [enters, enters_append, List.mem_append] at hx
    rcases hx with hx | hx
    · exact ih (hr.of fun x hx => by simp [hx]) (hdn hb hp) x hx
    · exact ih' (hr.of fun x hx => by simp [hx]) hb hreg hp x hx
  | expandCut hn h ih =>
    intro hr hb hreg hp x hx
    simp only [enters] at hx
    exact ih (hr.of fun x hx => by simp [hx]) (hdn hb hp) x hx

end Mp4
