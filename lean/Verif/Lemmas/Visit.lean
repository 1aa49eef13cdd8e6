import Verif.Lemmas.Forest
import Verif.Lemmas.Found

/-!
# Handlers that do something with every box and may expand it

`walk_run` is about handlers of a fixed shape; here the shape is free, and only the effect of a call of the handler is given.
-/

namespace Mp4

open Mp4.Props

section
variable {S P V : Type} {d : Bytes}

/-- The handler returns without expanding the box. -/
def Finishes (d : Bytes) (h : Handler S P V) (note : Handle P → S → S) (val : Handle P → List V → V) (x : Handle P) : Prop :=
  ∀ (children : Nat → P → TM S V (List V)) (st : TSt S V), st.pos = x.info.offset + x.info.headerSize →
    ∃ st2, runProg BoxMap.std d x.path x.info children (h x) 0 st = (.ok (val x []), st2) ∧ st2.user = note x st.user

/-- The handler expands the box, and returns when that succeeds. -/
def Expands (d : Bytes) (h : Handler S P V) (note : Handle P → S → S) (sub : Handle P → P) (val : Handle P → List V → V) (x : Handle P)
    (n : Nat) : Prop :=
  ∀ (children : Nat → P → TM S V (List V)) (st st2 : TSt S V) (vs : List V), st.pos = x.info.offset + x.info.headerSize →
    children (x.info.offset + x.info.headerSize + n) (sub x)
      ⟨x.info.offset + x.info.headerSize + n, note x st.user, st.log ++ [.openBox x.path x.info (x.info.offset + x.info.headerSize + n)]⟩ = (.ok vs, st2) →
    ∃ st3, runProg BoxMap.std d x.path x.info children (h x) 0 st = (.ok (val x vs), st3) ∧ st3.user = st2.user

/-- This is so for all boxes visited. -/
def Acts (d : Bytes) (h : Handler S P V) (note : Handle P → S → S) (want : Handle P → Bool) (sub : Handle P → P)
    (val : Handle P → List V → V) (path : List BoxType) (p : P) : Forest → Prop
  | .nil => True
  | .leaf bi rest => Finishes d h note val ⟨p, bi, path ++ [bi.type]⟩ ∧ Acts d h note want sub val path p rest
  | .node bi n kids rest =>
    (want ⟨p, bi, path ++ [bi.type]⟩ = false → Finishes d h note val ⟨p, bi, path ++ [bi.type]⟩) ∧
    (want ⟨p, bi, path ++ [bi.type]⟩ = true → Expands d h note sub val ⟨p, bi, path ++ [bi.type]⟩ n ∧
      Acts d h note want sub val (path ++ [bi.type]) (sub ⟨p, bi, path ++ [bi.type]⟩) kids) ∧
    Acts d h note want sub val path p rest

/-- the traversal of a well-formed row by such a handler -/
theorem visit_run (hd : d.length ≤ maxAlloc) (h : Handler S P V) (note : Handle P → S → S) (want : Handle P → Bool) (sub : Handle P → P)
    (val : Handle P → List V → V) : ∀ (F : Forest) (f : Nat) (parent : Option BoxInfo) (total : Nat) (isRoot : Bool)
    (path : List BoxType) (ctx : Ctx) (p : P) (st : TSt S V), F.WF d isRoot path ctx st.pos total →
    Acts d h note want sub val path p F → F.count < f → total < U64 →
    ∃ st2, readStructure BoxMap.std d h f parent total isRoot path ctx p st = (.ok (F.values want sub val path p), st2) ∧
      st2.user = (F.visited want sub parent path p).foldl (fun s x => note x.2 s) st.user := by
  intro F
  induction F with
  | nil =>
    intro f parent total isRoot path ctx p st hwf hex hf ht
    obtain ⟨f, rfl⟩ : ∃ g, f = g + 1 := ⟨f - 1, by simp only [Forest.count] at hf; omega⟩
    simp only [Forest.WF] at hwf
    rw [readStructure]
    cases isRoot with
    | true =>
      rw [if_pos rfl] at hwf
      have hi := readBoxInfo_iso d st.pos (by simp only [maxAlloc] at hd; omega)
      rw [hwf, List.drop_length] at hi
      have hi : ∃ q, readBoxInfo d st.pos = (.err .eof, q) := by rw [hwf]; exact hi
      obtain ⟨q, hi⟩ := hi
      have e1 : (tryM (liftP (readBoxInfo d)) : TM S V _) st = (.ok (.error .eof), { st with pos := q }) := by
        unfold tryM; rw [liftP_run, hi]
      rw [if_pos (.inl rfl), M.bind_ok e1]
      exact ⟨{ st with pos := q }, rfl, rfl⟩
    | false =>
      rw [if_neg (by simp)] at hwf
      rw [if_neg (by simp [smallHeaderSize]; omega), if_neg (by
        rintro ⟨h1, h2⟩
        rcases hwf with h | h
        · exact h1 h
        · exact h2 h.2)]
      exact ⟨st, rfl, rfl⟩
  | leaf bi rest ih =>
    intro f parent total isRoot path ctx p st hwf hex hf ht
    obtain ⟨f, rfl⟩ : ∃ g, f = g + 1 := ⟨f - 1, by simp only [Forest.count] at hf; omega⟩
    simp only [Forest.count] at hf
    obtain ⟨hp, hwf⟩ := hwf
    obtain ⟨hret, hex⟩ := hex
    obtain ⟨st2, hr, hu⟩ := hret (fun co p => readStructure BoxMap.std d h f (some bi)
        (sub64 (add64 bi.offset bi.size) co) false (path ++ [bi.type]) (childCtx bi) p)
      (entered { st with pos := st.pos + bi.headerSize } parent (path ++ [bi.type]) bi) rfl
    obtain ⟨hwf', hlt⟩ := rest_wf hp.inParent ht hwf
    obtain ⟨st3, e, he⟩ := ih f parent (sub64 total bi.size) isRoot path (nextCtx ctx bi) p
      ⟨st.pos + bi.size, st2.user, st2.log ++ [.leave parent (path ++ [bi.type]) bi (.ok (val ⟨p, bi, path ++ [bi.type]⟩ []))]⟩
      hwf' hex (by omega) hlt
    refine ⟨st3, ((placed_step hd hp hr).trans (map_ok (f := fun vs => _ :: vs) e)).trans rfl, ?_⟩
    rw [he]
    simp only [Forest.visited, List.foldl_cons]
    rw [hu]
    rfl
  | node bi n kids rest ihk ih =>
    intro f parent total isRoot path ctx p st hwf hex hf ht
    obtain ⟨f, rfl⟩ : ∃ g, f = g + 1 := ⟨f - 1, by simp only [Forest.count] at hf; omega⟩
    simp only [Forest.count] at hf
    obtain ⟨hp, hn, hwk, hwf⟩ := hwf
    obtain ⟨hret, hexp, hex⟩ := hex
    obtain ⟨hwf', hlt⟩ := rest_wf hp.inParent ht hwf
    cases hw : want ⟨p, bi, path ++ [bi.type]⟩ with
    | false =>
      obtain ⟨st2, hr, hu⟩ := hret hw (fun co p => readStructure BoxMap.std d h f (some bi)
          (sub64 (add64 bi.offset bi.size) co) false (path ++ [bi.type]) (childCtx bi) p)
        (entered { st with pos := st.pos + bi.headerSize } parent (path ++ [bi.type]) bi) rfl
      obtain ⟨st3, e, he⟩ := ih f parent (sub64 total bi.size) isRoot path (nextCtx ctx bi) p
        ⟨st.pos + bi.size, st2.user, st2.log ++ [.leave parent (path ++ [bi.type]) bi (.ok (val ⟨p, bi, path ++ [bi.type]⟩ []))]⟩
        hwf' hex (by omega) hlt
      refine ⟨st3, ((placed_step hd hp hr).trans (map_ok (f := fun vs => _ :: vs) e)).trans ?_, ?_⟩
      · simp [Forest.values, hw]
      · rw [he]
        simp [Forest.visited, hw, hu]
        rfl
    | true =>
      obtain ⟨hh, hb⟩ := placed_header hd hp
      have hin : bi.offset + bi.headerSize + n ≤ bi.offset + bi.size ∧ bi.offset + bi.size ≤ d.length := by
        refine ⟨?_, by rw [hp.offset]; exact hp.inFile⟩
        have h1 := payloadN_bound hd hb.inside hn
        have h2 := hp.whole
        have h3 := hb.lt
        have h4 : sub64 bi.size bi.headerSize = bi.size - bi.headerSize := by
          unfold sub64
          simp only [U64] at *
          omega
        omega
      have htot : sub64 (add64 bi.offset bi.size) (bi.offset + bi.headerSize + n) = bi.size - bi.headerSize - n := by
        unfold sub64 add64
        simp only [maxAlloc, U64] at *
        omega
      obtain ⟨he1, hk⟩ := hexp hw
      obtain ⟨st2, e1, hu1⟩ := ihk f (some bi)
        (sub64 (add64 bi.offset bi.size) (bi.offset + bi.headerSize + n)) false (path ++ [bi.type]) (childCtx bi)
        (sub ⟨p, bi, path ++ [bi.type]⟩)
        ⟨bi.offset + bi.headerSize + n, note ⟨p, bi, path ++ [bi.type]⟩ st.user,
          st.log ++ [.enter parent (path ++ [bi.type]) bi] ++
            [.openBox (path ++ [bi.type]) bi (bi.offset + bi.headerSize + n)]⟩
        (by
          rw [htot]
          simp only
          rw [hp.offset]
          exact hwk) hk (by omega) (by unfold sub64; exact Nat.mod_lt _ (by decide))
      obtain ⟨st3, hr, hu⟩ := he1 (fun co p => readStructure BoxMap.std d h f (some bi)
          (sub64 (add64 bi.offset bi.size) co) false (path ++ [bi.type]) (childCtx bi) p)
        (entered { st with pos := st.pos + bi.headerSize } parent (path ++ [bi.type]) bi) st2 _ rfl e1
      obtain ⟨st4, e, he⟩ := ih f parent (sub64 total bi.size) isRoot path (nextCtx ctx bi) p
        ⟨st.pos + bi.size, st3.user, st3.log ++ [.leave parent (path ++ [bi.type]) bi (.ok _)]⟩ hwf' hex (by omega) hlt
      refine ⟨st4, ((placed_step hd hp hr).trans (map_ok (f := fun vs => _ :: vs) e)).trans ?_, ?_⟩
      · simp [Forest.values, hw]
      · rw [he]
        simp [Forest.visited, hw, hu, hu1]

/-- the traversal of a well-formed file -/
theorem visit_file (hd : d.length ≤ maxAlloc) {h : Handler S P V} {note : Handle P → S → S} {want : Handle P → Bool} {sub : Handle P → P}
    {val : Handle P → List V → V} {F : Forest} (hF : F.WF d true [] {} 0 0) {p : P} (ha : Acts d h note want sub val [] p F) {fuel : Nat}
    (hf : F.count < fuel) (pos : Nat) (s : S) (log : List (Ev V)) :
    ∃ st2, readBoxStructure BoxMap.std d h fuel p ⟨pos, s, log⟩ = (.ok (F.values want sub val [] p), st2) ∧
      st2.user = (F.visited want sub none [] p).foldl (fun s x => note x.2 s) s := by
  have e0 : (liftP (seekStartP 0) : TM S V Nat) ⟨pos, s, log⟩ = (.ok 0, ⟨0, s, log⟩) := by
    rw [liftP_run]
    rfl
  unfold readBoxStructure
  rw [M.bind_ok e0]
  exact visit_run hd h note want sub val F fuel none 0 true [] {} p ⟨0, s, log⟩ hF ha hf (by decide)

end

/-! ## Arbitrary files -/

section
variable {S V : Type} {d : Bytes}

/-- the handles of the calls of the handler -/
def calls : List (Ev V) → List (Handle Unit)
  | [] => []
  | .enter _ path bi :: l => ⟨(), bi, path⟩ :: calls l
  | _ :: l => calls l

theorem calls_append : ∀ (l1 l2 : List (Ev V)), calls (l1 ++ l2) = calls l1 ++ calls l2
  | [], _ => rfl
  | .enter _ _ _ :: l1, l2 => by simp [calls, calls_append l1 l2]
  | .openBox _ _ _ :: l1, l2 => by simp [calls, calls_append l1 l2]
  | .closeBox _ _ _ :: l1, l2 => by simp [calls, calls_append l1 l2]
  | .leave _ _ _ _ :: l1, l2 => by simp [calls, calls_append l1 l2]

/-- the variables are the result of the calls so far -/
def Noted (note : Handle Unit → S → S) (s0 : S) (st : TSt S V) : Prop :=
  st.user = (calls st.log).foldl (fun s x => note x s) s0

/-- a call of the handler has this effect, whatever happens inside -/
def Notes (m : BoxMap) (d : Bytes) (h : Handler S Unit V) (note : Handle Unit → S → S) (s0 : S) : Prop :=
  ∀ (x : Handle Unit) (children : Nat → Unit → TM S V (List V)), (∀ co p, Gathers (Noted note s0) (children co p)) →
    ∀ st : TSt S V, st.user = (calls st.log.dropLast).foldl (fun s x => note x s) s0 → calls st.log = calls st.log.dropLast ++ [x] →
      Noted note s0 (runProg m d x.path x.info children (h x) 0 st).2

variable {m : BoxMap} {h : Handler S Unit V} {note : Handle Unit → S → S} {s0 : S}

theorem noted_liftP {α : Type} (x : PM α) : Gathers (Noted note s0) (liftP x : TM S V α) := fun s h => by
  rw [liftP_run]
  exact h

theorem noted_emit {ev : Ev V} (he : calls [ev] = []) : Gathers (Noted note s0) (emit ev : TM S V Unit) := by
  intro s h
  show s.user = (calls (s.log ++ [ev])).foldl (fun s x => note x s) s0
  rw [calls_append, he, List.append_nil]
  exact h

theorem noted_expand {path : List BoxType} {bi : BoxInfo} {children : Nat → Unit → TM S V (List V)} {k : Except Err (List V) → Prog S Unit V}
    (hc : ∀ co p, Gathers (Noted note s0) (children co p))
    (hk : ∀ r co, Gathers (Noted note s0) (runProg m d path bi children (k r) co)) (co : Nat) :
    Gathers (Noted note s0) (runProg m d path bi children (.expand () k) co) := by
  rw [runProg]
  refine gathers_bind (gathers_tryM (noted_liftP _)) fun r => ?_
  cases r with
  | error e => exact hk _ _
  | ok co' =>
    exact gathers_bind (noted_emit rfl) fun _ => gathers_bind (gathers_tryM (hc _ _)) fun r =>
      gathers_bind (noted_emit rfl) fun _ => hk _ _

theorem noted_fromInternal (hn : Notes m d h note s0) {rec : BoxInfo → Nat → List BoxType → Ctx → Unit → TM S V (List V)}
    (hrec : ∀ bi total path ctx p, Gathers (Noted note s0) (rec bi total path ctx p))
    (parent : Option BoxInfo) (bi : BoxInfo) (path : List BoxType) (p : Unit) :
    Gathers (Noted note s0) (fromInternal m d h rec parent bi path p) := by
  unfold fromInternal
  refine gathers_bind (noted_liftP _) fun _ => gathers_bind (noted_liftP _) fun bi1 => gathers_bind (noted_liftP _) fun bi2 => ?_
  intro st hst
  have e1 : (emit (.enter parent (path ++ [bi2.type]) bi2) : TM S V Unit) st =
      (.ok (), { st with log := st.log ++ [.enter parent (path ++ [bi2.type]) bi2] }) := rfl
  simp only
  rw [M.bind_ok e1]
  have hr := hn ⟨p, bi2, path ++ [bi2.type]⟩
    (fun co p => rec bi2 (sub64 (add64 bi2.offset bi2.size) co) (path ++ [bi2.type]) (childCtx bi2) p)
    (fun co p => hrec _ _ _ _ _) { st with log := st.log ++ [.enter parent (path ++ [bi2.type]) bi2] }
    (by simp only [List.dropLast_concat]; exact hst) (by simp only [List.dropLast_concat, calls_append]; rfl)
  have rest : ∀ r : Except Err V, Gathers (Noted note s0) (do
      emit (.leave parent (path ++ [bi2.type]) bi2 r)
      let v ← ofExcept r
      let _ ← liftP bi2.seekToEnd
      pure (v, bi2) : TM S V (V × BoxInfo)) := fun r =>
    gathers_bind (noted_emit rfl) fun _ => gathers_bind (gathers_ofExcept r) fun v => gathers_bind (noted_liftP _) fun _ => gathers_pure _
  simp only at hr
  generalize hx : runProg m d (path ++ [bi2.type]) bi2
    (fun co p => rec bi2 (sub64 (add64 bi2.offset bi2.size) co) (path ++ [bi2.type]) (childCtx bi2) p)
    (h ⟨p, bi2, path ++ [bi2.type]⟩) 0 = x at hr ⊢
  generalize ({ st with log := st.log ++ [.enter parent (path ++ [bi2.type]) bi2] } : TSt S V) = st1 at hr ⊢
  cases hy : x st1 with
  | mk o st2 =>
    rw [hy] at hr
    cases o with
    | ok a =>
      have ht : tryM x st1 = (.ok (.ok a), st2) := by unfold tryM; rw [hy]
      rw [M.bind_ok ht]; exact rest _ st2 hr
    | err e =>
      have ht : tryM x st1 = (.ok (.error e), st2) := by unfold tryM; rw [hy]
      rw [M.bind_ok ht]; exact rest _ st2 hr
    | panic =>
      have ht : tryM x st1 = (.panic, st2) := by unfold tryM; rw [hy]
      rw [M.bind_panic ht]; exact hr
    | hang =>
      have ht : tryM x st1 = (.hang, st2) := by unfold tryM; rw [hy]
      rw [M.bind_hang ht]; exact hr

theorem noted_readStructure (hn : Notes m d h note s0) : ∀ (f : Nat) (parent : Option BoxInfo) (total : Nat) (isRoot : Bool) (path : List BoxType)
    (ctx : Ctx) (p : Unit), Gathers (Noted note s0) (readStructure m d h f parent total isRoot path ctx p)
  | 0, _, _, _, _, _, _ => fun _ h => h
  | f + 1, parent, total, isRoot, path, ctx, p => by
    rw [readStructure]
    split
    · refine gathers_bind (gathers_tryM (noted_liftP _)) fun r => ?_
      cases r with
      | error e =>
        simp only
        split
        · exact gathers_pure _
        · exact gathers_fail _
      | ok bi =>
        simp only
        split
        · exact gathers_fail _
        · exact gathers_bind (noted_fromInternal hn (fun _ _ _ _ _ => noted_readStructure hn f _ _ _ _ _ _) _ _ _ _) fun x =>
            gathers_bind (noted_readStructure hn f _ _ _ _ _ _) fun _ => gathers_pure _
    · split
      · exact gathers_fail _
      · exact gathers_pure _

/-- the variables after a traversal -/
theorem noted_readBoxStructure (hn : Notes m d h note s0) (fuel : Nat) (p : Unit) (pos : Nat) :
    Noted note s0 (readBoxStructure m d h fuel p ⟨pos, s0, []⟩).2 :=
  gathers_bind (noted_liftP _) (fun _ => noted_readStructure hn fuel _ _ _ _ _ _) ⟨pos, s0, []⟩ rfl

end

end Mp4
