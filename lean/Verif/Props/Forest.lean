import Verif.Lemmas.Forest
import Verif.Props.Traverse

/-!
# C20: traversal of a well-formed file
-/

namespace Mp4.Props

open Mp4

variable {S P V : Type} {d : Bytes}

/-- On a well-formed file, a handler that expands the boxes it wants is called for every box of the file all of whose ancestors are
wanted, once for each, in file order, with the true path, header and parent; traversal ends and returns
the values of the root boxes; variables of the handler are updated in that order.  No leaf may be wanted. -/
theorem walk_visits (hd : d.length ≤ 2 ^ 48) (F : Forest) (hwf : F.WF d true [] {} 0 0) (note : Handle P → S → S)
    (want : Handle P → Bool) (sub : Handle P → P) (val : Handle P → List V → V) (p : P) (s : S) (pos : Nat)
    (hex : F.Expandable want sub [] p) (fuel : Nat) (hf : F.count < fuel) :
    let r := traverse d (walker note want sub val) fuel p s pos
    r.1 = .ok (F.values want sub val [] p) ∧
    enters r.2.log = (F.visited want sub none [] p).map (fun x => (x.1, x.2.path, x.2.info)) ∧
    r.2.user = (F.visited want sub none [] p).foldl (fun s x => note x.2 s) s := by
  obtain ⟨q, L, e, hL⟩ := walk_run (show d.length ≤ maxAlloc from hd) note want sub val F fuel none 0 true [] {} p
    ⟨0, s, []⟩ hwf hex hf (by decide)
  have e1 : (liftP (seekStartP 0) : TM S V Nat) ⟨pos, s, []⟩ = (.ok 0, ⟨0, s, []⟩) := rfl
  have ht : traverse d (walker note want sub val) fuel p s pos = _ := (M.bind_ok e1).trans e
  simp only [ht, List.nil_append]
  exact ⟨trivial, hL, trivial⟩

theorem visited_all (want : Handle P → Bool) (sub : Handle P → P) : ∀ (F : Forest) (parent : Option BoxInfo)
    (path : List BoxType) (p : P), (∀ (h : Handle P) (n : Nat), PayloadN d h.info n → want h = true) →
    (∀ isRoot ctx pos total, F.WF d isRoot path ctx pos total →
    (F.visited want sub parent path p).map (fun x => (x.1, x.2.path, x.2.info)) = F.boxes parent path)
  | .nil, _, _, _, _ => fun _ _ _ _ _ => rfl
  | .leaf bi rest, parent, path, p, hw => by
    intro isRoot ctx pos total hwf
    simp only [Forest.visited, Forest.boxes, List.map_cons]
    rw [visited_all want sub rest parent path p hw _ _ _ _ hwf.2]
  | .node bi n kids rest, parent, path, p, hw => by
    intro isRoot ctx pos total hwf
    obtain ⟨h1, h2, h3, h4⟩ := hwf
    simp only [Forest.visited, Forest.boxes, List.map_cons, List.map_append]
    rw [if_pos (hw _ n h2), visited_all want sub rest parent path p hw _ _ _ _ h4,
      visited_all want sub kids _ _ _ hw _ _ _ _ h3]

theorem expandable_leaves (want : Handle P → Bool) (sub : Handle P → P) : ∀ (F : Forest) (path : List BoxType) (p : P),
    (∀ x ∈ leaves path F, ∀ q, want ⟨q, x.2, x.1⟩ = false) → F.Expandable want sub path p
  | .nil, _, _, _ => trivial
  | .leaf bi rest, path, p, h =>
    ⟨h _ List.mem_cons_self _, expandable_leaves want sub rest path p fun x hx => h x (List.mem_cons_of_mem _ hx)⟩
  | .node bi n kids rest, path, p, h =>
    ⟨fun _ => expandable_leaves want sub kids _ _ fun x hx => h x (List.mem_append.2 (.inl hx)),
      expandable_leaves want sub rest path p fun x hx => h x (List.mem_append.2 (.inr hx))⟩

/-- What can be decoded is supported. -/
theorem payloadN_supported {bi : BoxInfo} {n : Nat} (h : PayloadN d bi n) :
    BoxMap.std.isSupported bi.type bi.ctx = true := by
  obtain ⟨box, p, h⟩ := h
  unfold BoxMap.unmarshalAny BoxMap.new at h
  unfold BoxMap.isSupported
  cases hl : BoxMap.std.getBoxDef bi.type bi.ctx with
  | none => rw [hl] at h; cases h
  | some bd => rfl

/-- **C20** — On every well-formed file (any number of boxes, nested to any depth) all of whose boxes of known types can be decoded
(so that only boxes of unknown types are leaves), `ReadBoxStructure` with a handler that expands every box of known type (and may keep
notes and return values) calls the handler once for each box, in file order, with the true parent, path, offset,
size and header size, and ends without an error. -/
theorem visits_every_box_in_order (hd : d.length ≤ 2 ^ 48) (F : Forest) (hwf : F.WF d true [] {} 0 0)
    (hleaf : ∀ x ∈ leaves [] F, BoxMap.std.isSupported x.2.type x.2.ctx = false) (note : Handle P → S → S)
    (sub : Handle P → P) (val : Handle P → List V → V) (p : P) (s : S) (pos : Nat) (fuel : Nat) (hf : F.count < fuel) :
    let h := walker note (fun h => BoxMap.std.isSupported h.info.type h.info.ctx) sub val
    (∃ vs, (traverse d h fuel p s pos).1 = .ok vs) ∧ enters (traverse d h fuel p s pos).2.log = F.boxes none [] := by
  have := walk_visits hd F hwf note (fun h => BoxMap.std.isSupported h.info.type h.info.ctx) sub val p s pos
    (expandable_leaves _ _ _ _ _ fun x hx q => hleaf x hx) fuel hf
  refine ⟨⟨_, this.1⟩, this.2.1.trans ?_⟩
  exact visited_all _ sub F none [] p (fun h n hn => payloadN_supported hn) _ _ _ _ hwf

/-! ## File order -/

theorem boxes_after : ∀ (F : Forest) (isRoot : Bool) (parent : Option BoxInfo) (path : List BoxType) (ctx : Ctx) (pos total : Nat),
    d.length ≤ maxAlloc → F.WF d isRoot path ctx pos total →
    (∀ x ∈ F.boxes parent path, pos ≤ x.2.2.offset ∧ (isRoot = false → x.2.2.offset < pos + total)) ∧
      (F.boxes parent path).Pairwise (fun x y => x.2.2.offset < y.2.2.offset)
  | .nil, isRoot, parent, path, ctx, pos, total, hd, hwf => by
    simp [Forest.boxes]
  | .leaf bi rest, isRoot, parent, path, ctx, pos, total, hd, ⟨hp, hwf⟩ => by
    obtain ⟨h1, h2⟩ := boxes_after rest isRoot parent path (nextCtx ctx bi) (pos + bi.size) (total - bi.size) hd hwf
    obtain ⟨-, hb⟩ := placed_header hd hp
    have e1 := hp.offset
    have e2 := hb.pos
    simp only [Forest.boxes, List.mem_cons, List.pairwise_cons]
    refine ⟨?_, ?_, h2⟩
    · rintro x (rfl | hx)
      · refine ⟨by simp only; omega, fun hr => ?_⟩
        have := hp.inParent.resolve_left (by simp [hr])
        simp only
        omega
      · have := h1 x hx
        refine ⟨by omega, fun hr => ?_⟩
        have h3 := this.2 hr
        have := hp.inParent.resolve_left (by simp [hr])
        omega
    · intro x hx
      have := (h1 x hx).1
      omega
  | .node bi n kids rest, isRoot, parent, path, ctx, pos, total, hd, ⟨hp, hn, hk, hwf⟩ => by
    obtain ⟨h1, h2⟩ := boxes_after rest isRoot parent path (nextCtx ctx bi) (pos + bi.size) (total - bi.size) hd hwf
    obtain ⟨k1, k2⟩ := boxes_after kids false (some bi) (path ++ [bi.type]) (childCtx bi) (pos + bi.headerSize + n)
      (bi.size - bi.headerSize - n) hd hk
    obtain ⟨-, hb⟩ := placed_header hd hp
    have e1 := hp.offset
    have e2 := hb.pos
    have e3 := hb.hdr
    have e4 := hp.whole
    have e5 : n ≤ bi.size - bi.headerSize := by
      have h1 := (payloadN_bound hd hb.inside hn).2
      have h3 := hb.lt
      have h4 : sub64 bi.size bi.headerSize = bi.size - bi.headerSize := by
        unfold sub64
        simp only [U64] at *
        omega
      omega
    simp only [Forest.boxes, List.mem_cons, List.pairwise_cons, List.mem_append, List.pairwise_append]
    refine ⟨?_, ?_, k2, h2, ?_⟩
    · rintro x (rfl | hx | hx)
      · refine ⟨by simp only; omega, fun hr => ?_⟩
        have := hp.inParent.resolve_left (by simp [hr])
        simp only
        omega
      · have := k1 x hx
        have h3 := this.2 rfl
        refine ⟨by omega, fun hr => ?_⟩
        have := hp.inParent.resolve_left (by simp [hr])
        omega
      · have := h1 x hx
        refine ⟨by omega, fun hr => ?_⟩
        have h3 := this.2 hr
        have := hp.inParent.resolve_left (by simp [hr])
        omega
    · rintro x (hx | hx)
      · have := (k1 x hx).1
        omega
      · have := (h1 x hx).1
        omega
    · intro x hx y hy
      have h3 := (k1 x hx).2 rfl
      have h4 := (h1 y hy).1
      omega

/-- The boxes of a well-formed file, as listed in C20, are in file order: offsets increase strictly (so no box occurs
twice). -/
theorem boxes_in_file_order (hd : d.length ≤ 2 ^ 48) (F : Forest) (hwf : F.WF d true [] {} 0 0) :
    (F.boxes none []).Pairwise (fun x y => x.2.2.offset < y.2.2.offset) :=
  (boxes_after F true none [] {} 0 0 hd hwf).2

/-! ## A file that meets the conditions -/

/-- `moov` { `xxxx` }, `xxxx` -/
def smallFile : Bytes := [0, 0, 0, 16, 0x6d, 0x6f, 0x6f, 0x76, 0, 0, 0, 8, 0x78, 0x78, 0x78, 0x78,
  0, 0, 0, 9, 0x78, 0x78, 0x78, 0x78, 7]

/-- its boxes -/
def smallForest : Forest :=
  .node ⟨0, 16, 8, ⟨0x6d, 0x6f, 0x6f, 0x76⟩, false, {}⟩ 0
    (.leaf ⟨8, 8, 8, ⟨0x78, 0x78, 0x78, 0x78⟩, false, {}⟩ .nil)
    (.leaf ⟨16, 9, 8, ⟨0x78, 0x78, 0x78, 0x78⟩, false, {}⟩ .nil)

theorem ownCtx_plain {path : List BoxType} {ctx : Ctx} {bi : BoxInfo} (hc : bi.ctx = ctx) (h1 : bi.type ≠ tFtyp)
    (h2 : bi.type ≠ tKeys) : OwnCtx d path ctx bi := by
  subst hc
  exact ⟨rfl, rfl, rfl, rfl, rfl, ⟨.inl, fun h => h.elim id fun h => absurd h.2.1 h1⟩, fun _ h => absurd h h1, fun _ => rfl,
    fun h => absurd h h2⟩

theorem payloadN_of {bi : BoxInfo} {n : Nat}
    (h : (match (BoxMap.std.unmarshalAny d bi.type (sub64 bi.size bi.headerSize) bi.ctx (bi.offset + bi.headerSize)).1 with
      | .ok r => r.2 == n
      | _ => false) = true) : PayloadN d bi n := by
  unfold PayloadN
  cases hr : BoxMap.std.unmarshalAny d bi.type (sub64 bi.size bi.headerSize) bi.ctx (bi.offset + bi.headerSize) with
  | mk o p =>
    rw [hr] at h
    match o, h with
    | .ok (box, k), h =>
      simp only [beq_iff_eq] at h
      subst h
      exact ⟨box, p, rfl⟩

theorem smallFile_wf : smallForest.WF smallFile true [] {} 0 0 := by
  refine ⟨⟨rfl, by decide +kernel, by decide, by decide, .inl rfl, ownCtx_plain rfl (by decide) (by decide)⟩,
    payloadN_of (by decide +kernel), ⟨⟨rfl, by decide +kernel, by decide, by decide, .inr (by decide),
      ownCtx_plain rfl (by decide) (by decide)⟩, .inl rfl⟩,
    ⟨⟨rfl, by decide +kernel, by decide, by decide, .inl rfl, ownCtx_plain rfl (by decide) (by decide)⟩, rfl⟩⟩

example : ∀ x ∈ leaves [] smallForest, BoxMap.std.isSupported x.2.type x.2.ctx = false := by decide +kernel

example : (smallForest.boxes none []).map (fun x => (x.2.1.length, x.2.2.offset)) = [(1, 0), (2, 8), (1, 16)] := by decide

end Mp4.Props
