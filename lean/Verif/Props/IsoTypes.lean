import Verif.Lemmas.Lookup
import Verif.Props.WriteRead

/-!
# C48: the four-character codes

The layouts of `Props/Iso.lean`, `Props/IsoTables.lean`, `Props/IsoOptional.lean`, `Props/IsoTrun.lean` and
`Props/Emsg.lean` are those of Go types.  Here: which box types of a file are decoded into these Go types.
-/

namespace Mp4.Props

open Mp4 Mp4.Spec

/-- A Go type has one definition. -/
theorem goName_inj : ∀ a ∈ Cat.allDefs, ∀ b ∈ Cat.allDefs, a.goName = b.goName → a = b := by
  have hn : (Cat.allDefs.map (·.goName)).Nodup := by decide +kernel
  generalize Cat.allDefs = l at hn
  induction l with
  | nil => intro a h; cases h
  | cons x l ih =>
    rw [List.map_cons, List.nodup_cons] at hn
    intro a ha b hb e
    rcases List.mem_cons.1 ha with ha | ha
    all_goals rcases List.mem_cons.1 hb with hb | hb
    · rw [ha, hb]
    · exact absurd (List.mem_map.2 ⟨b, hb, by rw [← e, ha]⟩) hn.1
    · exact absurd (List.mem_map.2 ⟨a, ha, by rw [e, hb]⟩) hn.1
    · exact ih hn.2 a ha b hb e

/-- the bytes of a four-character code -/
def code (a b c d : Char) : BoxType :=
  ⟨BitVec.ofNat 8 a.toNat, BitVec.ofNat 8 b.toNat, BitVec.ofNat 8 c.toNat, BitVec.ofNat 8 d.toNat⟩

/-- the codes of the standard and the Go types -/
def isoTypes : List (BoxType × BoxDef) :=
  [(code 'f' 't' 'y' 'p', Cat.bdFtyp), (code 'm' 'v' 'h' 'd', Cat.bdMvhd), (code 't' 'k' 'h' 'd', Cat.bdTkhd),
   (code 'm' 'd' 'h' 'd', Cat.bdMdhd), (code 'm' 'e' 'h' 'd', Cat.bdMehd), (code 't' 'r' 'e' 'x', Cat.bdTrex),
   (code 'm' 'f' 'h' 'd', Cat.bdMfhd), (code 'm' 'f' 'r' 'o', Cat.bdMfro), (code 't' 'f' 'd' 't', Cat.bdTfdt),
   (code 'v' 'm' 'h' 'd', Cat.bdVmhd), (code 's' 'm' 'h' 'd', Cat.bdSmhd), (code 'b' 't' 'r' 't', Cat.bdBtrt),
   (code 'p' 'a' 's' 'p', Cat.bdPixelAspectRatioBox), (code 's' 't' 't' 's', Cat.bdStts), (code 'c' 't' 't' 's', Cat.bdCtts),
   (code 's' 't' 's' 'c', Cat.bdStsc), (code 's' 't' 's' 'z', Cat.bdStsz), (code 's' 't' 'c' 'o', Cat.bdStco),
   (code 'c' 'o' '6' '4', Cat.bdCo64), (code 's' 't' 's' 's', Cat.bdStss), (code 'e' 'l' 's' 't', Cat.bdElst),
   (code 's' 'i' 'd' 'x', Cat.bdSidx), (code 't' 'f' 'h' 'd', Cat.bdTfhd), (code 't' 'r' 'u' 'n', Cat.bdTrun),
   (code 'e' 'm' 's' 'g', Cat.bdEmsg)]

/-- In every context, each of these codes is decoded into the Go type named beside it. -/
theorem iso_types : ∀ r ∈ isoTypes, ∀ ctx, BoxMap.std.getBoxDef r.1 ctx = some r.2 := by
  intro r hr ctx
  have h1 : ∀ r ∈ isoTypes, (BoxMap.std r.1).map (fun bd => (bd.goName, bd.target.isNone)) = [(r.2.goName, true)] := by
    decide +kernel
  have h2 : ∀ r ∈ isoTypes, r.2 ∈ Cat.allDefs := by
    unfold isoTypes
    simp only [List.forall_mem_cons]
    repeat' apply And.intro
    all_goals first
      | (simp [Cat.allDefs]; done)
      | (intro x hx; cases hx)
  exact std_def (h1 r hr) fun b hb e => goName_inj b hb r.2 (h2 r hr) e

end Mp4.Props
