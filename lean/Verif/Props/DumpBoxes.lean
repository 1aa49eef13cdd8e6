import Verif.Spec.DumpBoxes
import Verif.Props.Summary

/-!
# C88: what `mp4tool dump` shows of a written file
-/

namespace Mp4.DumpBoxes

open Mp4 Mp4.Tool Mp4.Str Mp4.Props

variable {d : Bytes}

theorem listed (cfg : DumpCfg) : ∀ (B : Boxes) (isRoot : Bool) (ctx : Ctx) (pos : Nat), B.Unknown isRoot ctx → Bare cfg B →
    Listed d cfg (B.forest isRoot ctx pos)
  | .nil, _, _, _, _, _ => trivial
  | .raw start p rest, isRoot, ctx, pos, hu, hb => ⟨.inl ⟨[], .inl ⟨hu.1, rfl⟩⟩, listed cfg rest isRoot ctx _ hu.2 hb⟩
  | .box start bd sv kids rest, isRoot, ctx, pos, hu, hb => by
    refine ⟨?_, listed cfg kids _ _ _ hu.1 hb.2.1, listed cfg rest _ _ _ hu.2 hb.2.2⟩
    rintro ⟨hf, h⟩
    have hk : kids = .nil := hb.1 hf (h.imp_right (fun h => h.2))
    rw [hk]; rfl

/-- the fields are decoded -/
def Decodes (d : Bytes) (x : BoxInfo × BoxDef × SV) : Prop :=
  ∃ n, BoxMap.std.unmarshalAny d x.1.type (sub64 x.1.size x.1.headerSize) x.1.ctx (x.1.offset + x.1.headerSize) =
    (.ok (⟨x.2.1, x.1.type, x.2.2⟩, n), x.1.offset + x.1.headerSize + n)

theorem raw_line (cfg : DumpCfg) {path : List BoxType} {bi : BoxInfo} {p : Bytes} {line : Text} (hu : BoxMap.std.isSupported bi.type bi.ctx = false)
    (hp : payloadBytes d bi = p) (h : DumpLine d cfg (path ++ [bi.type]) bi line) (hb : ¬ Bulky bi.type) (hd : ∀ (m : BoxVal × Nat) (q : Nat),
      BoxMap.std.unmarshalAny d bi.type (sub64 bi.size bi.headerSize) bi.ctx (bi.offset + bi.headerSize) ≠ (.ok m, q)) :
    IsLine cfg path.length false bi (fun _ => SaysData cfg bi.type p) line := by
  obtain ⟨off, size, rest, h1, h2, h3, h4⟩ := h
  refine ⟨off, size, rest, h1, h2, ?_, ?_⟩
  · rw [h3, hu]; simp
  · have mk : ∀ mark, Undecoded d bi mark → mark = [] := by
      rintro mark (⟨-, h⟩ | ⟨h, -⟩)
      · exact h
      · rw [hu] at h; cases h
    cases h4 with
    | content h => exact absurd h (hd _ _)
    | wide h => exact absurd h (hd _ _)
    | table hk => rw [hu] at hk; cases hk
    | bulk _ h => exact absurd h hb
    | unknown hf _ h => rw [mk _ h]; exact .inr ⟨hf, rfl⟩
    | data hf h => rw [mk _ h, hp]; exact .inl ⟨hf, rfl⟩

theorem box_line (cfg : DumpCfg) {path : List BoxType} {bi : BoxInfo} {bd : BoxDef} {sv : SV} {line : Text} (hu : BoxMap.std.isSupported bi.type bi.ctx = true)
    (hd : Decodes d (bi, bd, sv)) (h : DumpLine d cfg (path ++ [bi.type]) bi line) :
    IsLine cfg path.length true bi (SaysFields cfg bi bd sv) line := by
  obtain ⟨off, size, rest, h1, h2, h3, h4⟩ := h
  obtain ⟨n, hd⟩ := hd
  simp only at hd
  have e : (path ++ [bi.type]).length - 1 = path.length := by simp
  have nu : ∀ mark, ¬ Undecoded d bi mark := by
    rintro mark (⟨h, -⟩ | ⟨-, ⟨p, h⟩, -⟩)
    · rw [hu] at h; cases h
    · rw [hd] at h; cases h
  rw [e, hu] at h4 h3
  refine ⟨off, size, rest, h1, h2, h3, ?_⟩
  revert h4
  generalize (List.length _ : Nat) = used
  intro h4
  unfold SaysFields
  cases h4 with
  | content h hs hf =>
    rw [hd] at h; cases h
    rw [if_neg (fun c => hf.elim c.2 (fun g => g.1 c.1)), if_neg (fun c => hf.elim c.2 (fun g => g.2.1 c.1))]
    exact ⟨_, hs, by rw [if_neg (fun c => hf.elim c.2 (fun g => by have := c.1; omega))]⟩
  | wide h hs hf hb ht hw =>
    rw [hd] at h; cases h
    rw [if_neg (fun c => hb c.1), if_neg (fun c => ht c.1)]
    exact ⟨_, hs, by rw [if_pos ⟨hw, hf⟩]⟩
  | table hk hf hb ht => rw [if_neg (fun c => hb c.1), if_pos ⟨ht, hf⟩]
  | bulk hf hb => rw [if_pos ⟨hb, hf⟩]
  | unknown _ _ h => exact absurd h (nu _)
  | data _ h => exact absurd h (nu _)

theorem bulky_known {t : BoxType} (h : Bulky t) (ctx : Ctx) : BoxMap.std.isSupported t ctx = true := by
  have key : ∀ u ∈ ([tMdat, ⟨0x66, 0x72, 0x65, 0x65⟩, ⟨0x73, 0x6b, 0x69, 0x70⟩] : List BoxType),
      (BoxMap.std u).map (fun bd => (bd.goName, bd.target.isNone)) = [(((BoxMap.std u).map BoxDef.goName).headD "", true)] := by decide +kernel
  have hm : t ∈ ([tMdat, ⟨0x66, 0x72, 0x65, 0x65⟩, ⟨0x73, 0x6b, 0x69, 0x70⟩] : List BoxType) := by
    have h := (bulky_iff t).2 h
    simpa [bulky, or_assoc] using h
  obtain ⟨bd, e, -⟩ := lookup_single (key t hm) ctx
  unfold BoxMap.isSupported
  rw [e]
  rfl

theorem not_decoded {bi : BoxInfo} (hu : BoxMap.std.isSupported bi.type bi.ctx = false) (n pos : Nat) (m : BoxVal × Nat) (q : Nat) :
    BoxMap.std.unmarshalAny d bi.type n bi.ctx pos ≠ (.ok m, q) := by
  have e : BoxMap.std.getBoxDef bi.type bi.ctx = none := by
    unfold BoxMap.isSupported at hu
    cases h : BoxMap.std.getBoxDef bi.type bi.ctx with
    | none => rfl
    | some _ => rw [h] at hu; cases hu
  have e2 : BoxMap.std.new bi.type bi.ctx = .error .boxInfoNotFound := by unfold BoxMap.new; rw [e]
  unfold BoxMap.unmarshalAny
  rw [e2]
  simp

theorem lists (cfg : DumpCfg) (line : List BoxType → BoxInfo → Text) : ∀ (B : Boxes) (isRoot last : Bool) (ctx : Ctx) (pos : Nat) (parent : Option BoxInfo)
    (path : List BoxType), B.Ok isRoot last ctx → B.Unknown isRoot ctx → (∀ x ∈ B.fields isRoot ctx pos, Decodes d x) →
    (∀ x ∈ B.payloads isRoot ctx pos, payloadBytes d x.1 = x.2) →
    (∀ x ∈ (B.forest isRoot ctx pos).boxes parent path, DumpLine d cfg x.2.1 x.2.2 (line x.2.1 x.2.2)) →
    Lists cfg B isRoot ctx pos path.length (((B.forest isRoot ctx pos).boxes parent path).map (fun x => line x.2.1 x.2.2))
  | .nil, _, _, _, _, _, _, _, _, _, _, _ => rfl
  | .raw start p rest, isRoot, last, ctx, pos, parent, path, hok, hu, hd, hp, hl => by
    simp only [Boxes.forest, Forest.boxes, List.forall_mem_cons] at hl
    simp only [Boxes.payloads, List.forall_mem_cons] at hp
    simp only [Boxes.forest, Forest.boxes, List.map_cons]
    refine ⟨_, _, rfl, ?_, lists cfg line rest isRoot last ctx _ parent path hok.2.2.2.2 hu.2 hd hp.2 hl.2⟩
    exact raw_line cfg hu.1 hp.1 hl.1 (fun h => by have := (bulky_known h ctx).symm.trans hu.1; cases this) (fun m q => not_decoded hu.1 _ _ m q)
  | .box start bd sv kids rest, isRoot, last, ctx, pos, parent, path, hok, hu, hd, hp, hl => by
    simp only [Boxes.forest, Forest.boxes, List.forall_mem_cons, List.forall_mem_append] at hl
    simp only [Boxes.payloads, List.forall_mem_append] at hp
    simp only [Boxes.fields, List.forall_mem_cons, List.forall_mem_append] at hd
    simp only [Boxes.forest, Forest.boxes, List.map_cons, List.map_append]
    obtain ⟨-, -, hg, -, hk, hr⟩ := hok
    refine ⟨_, _, _, rfl, ?_, ?_, lists cfg line rest isRoot last _ _ parent path hr hu.2 hd.2.2 hp.2 hl.2.2⟩
    · exact box_line cfg (by show (BoxMap.std.getBoxDef start.type _).isSome = true; simp only [Boxes.info]; rw [hg]; rfl) hd.1 hl.1
    · have := lists cfg line kids false _ _ _ (some _) (path ++ [start.type]) hk hu.1 hd.2.1 hp.1 hl.2.1
      rw [List.length_append] at this
      exact this

end Mp4.DumpBoxes

namespace Mp4.Props

open Mp4 Mp4.Tool Mp4.Str Mp4.DumpBoxes

/-- **C88** — Every row of boxes as in C29, written by `StartBox`, `Marshal` and `EndBox`: `mp4tool dump` of the file succeeds and prints one line for each
box, in order, indented by its depth, with its name, its true offset and size, and the fields as they were written, rendered by `Stringify` (or the bytes of a box
of unknown type), unless they are left out for one of the reasons the tool has. -/
theorem dump_written (B : Boxes) (hok : B.Ok true true {}) (hraw : B.Unknown true {}) (hlen : (B.ser true {}).length ≤ 2 ^ 48)
    (cfg : DumpCfg) (hb : Bare cfg B) (fuel : Nat) (hf : (B.forest true {} 0).count < fuel) :
    ∃ rs s', runOps noFaults (B.tree true {}).ops (WrSt.new ⟨[], 0, 0⟩) = (.ok rs, s') ∧ s'.stack = [] ∧
      ∃ lines, dump s'.file.data cfg fuel = (.ok (), lines) ∧ Lists cfg B true {} 0 0 lines := by
  obtain ⟨rs, s', h1, h2, h3⟩ := writes_boxes B hok hlen
  obtain ⟨w1, w2, w3⟩ := Boxes.wf_read hlen B true true {} [] [] [] 0 hok (by simp) (fun _ => rfl) (fun _ => rfl) (by simp) (.inl rfl)
  obtain ⟨line, e, hl⟩ := dump_lists hlen cfg _ w1 (listed cfg B true {} 0 hraw hb) fuel hf
  refine ⟨rs, s', h1, h3, _, by rw [h2]; exact e, ?_⟩
  exact lists cfg line B true true {} 0 none [] hok hraw (fun x hx => (w2 x hx).imp fun n h => h.1) w3 hl

/-! ## A file that meets the conditions -/

theorem initBoxes_bare (cfg : DumpCfg) : Bare cfg initBoxes :=
  ⟨fun _ _ => rfl, trivial, fun _ h => absurd h (by unfold Bulky; decide +kernel), ⟨fun _ _ => rfl, trivial, trivial⟩, trivial⟩

/-- `-a` with room for 180 characters in a line -/
def dumpCfg2 : DumpCfg := ⟨[], true, true, false, 180, fun _ => false⟩

example : ∃ rs s', runOps noFaults (initBoxes.tree true {}).ops (WrSt.new ⟨[], 0, 0⟩) = (.ok rs, s') ∧ s'.stack = [] ∧
    ∃ lines, dump s'.file.data dumpCfg2 9 = (.ok (), lines) ∧ Lists dumpCfg2 initBoxes true {} 0 0 lines :=
  dump_written initBoxes (Boxes.ok_mono _ _ _ _ initBoxes_ok.1) initBoxes_ok.2 (by decide +kernel) dumpCfg2 (initBoxes_bare _) 9 (by decide +kernel)

example : dump (initBoxes.ser true {}) ⟨[], false, true, false, 120, fun _ => false⟩ 9 = (.ok (), [
    lit "[ftyp] Offset=0 Size=20 MajorBrand=\"isom\" MinorVersion=1 CompatibleBrands=[{CompatibleBrand=\"isom\"}]",
    lit "[moov] Offset=20 Size=127",
    lit "  [mvhd] Offset=28 Size=108 ... (use \"-full mvhd\" to show all)",
    lit "  [xxxx] (unsupported box type) Offset=136 Size=11 Data=[...] (use \"-full xxxx\" to show all)"]) := by decide +kernel

end Mp4.Props
