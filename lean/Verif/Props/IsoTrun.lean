import Verif.Props.IsoOptional

/-!
# C48: the track run box
-/

namespace Mp4.Props

open Mp4 Mp4.Spec

/-- track run (8.8.8); fields whose flag is off are absent, and zero in Go -/
theorem trun_iso (version flags first : Nat) (dataOffset : Int) (samples : List RunSample) (hv : version = 0 ∨ version = 1)
    (hf : flags < 2 ^ 24) (h1 : IsInt 32 dataOffset) (z1 : flags &&& 0x1 = 0 → dataOffset = 0)
    (h2 : first < 2 ^ 32) (z2 : flags &&& 0x4 = 0 → first = 0)
    (hr : ∀ x ∈ samples, x.Valid version flags) (hn : samples.length < 2 ^ 32 - 1) (ctx : Ctx) :
    Encodes Cat.bdTrun ctx
      [full version flags, ("SampleCount", .uint samples.length), ("DataOffset", .int dataOffset),
       ("FirstSampleFlags", .uint first), ("Entries", .slice (samples.map (RunSample.toGo version)))]
      (ints [(8, version), (24, flags), (32, samples.length)] ++ (if flags &&& 0x1 ≠ 0 then sint 32 dataOffset else []) ++
        optInt (flags &&& 0x4 ≠ 0) 32 first ++ samples.flatMap (RunSample.bits flags)) := by
  have hB := full_bits version flags hf
  have hb : flags / 65536 < 256 ∧ flags / 256 % 256 < 256 ∧ flags % 256 < 256 := by omega
  have hw := flags_bytes flags version hf [("SampleCount", .uint samples.length), ("DataOffset", .int dataOffset),
       ("FirstSampleFlags", .uint first), ("Entries", .slice (samples.map (RunSample.toGo version)))]
  have hb' : ∀ x ∈ samples, (x.bits flags).length = RunSample.width flags := fun x hx => by
    rcases hv with rfl | rfl
    all_goals exact (RunSample.encoded { ctx := ctx, cfo := cfoTrun, hook := .none, root := [full _ flags] }
      { name := "", size := RunSample.width flags } _ flags (by decide) (by rfl) (flags_bytes _ _ hf _) rfl rfl x (hr x hx)).2.1
  have hlen : (samples.flatMap (RunSample.bits flags)).length = RunSample.width flags * samples.length :=
    flatMap_const _ _ _ hb'
  obtain ⟨w1, w2⟩ := RunSample.width_le flags
  have w3 : (RunSample.width flags * samples.length) % 8 = 0 :=
    Nat.mod_eq_zero_of_dvd (Nat.dvd_trans (Nat.dvd_of_mod_eq_zero w2) (Nat.dvd_mul_right _ _))
  have w4 : RunSample.width flags * samples.length ≤ 128 * samples.length := Nat.mul_le_mul_right _ w1
  have hh : ints [(8, version), (24, flags), (32, samples.length)] = ints [(8, version), (24, flags)] ++ natBits 32 samples.length := by
    simp [ints]
  simp only [Nat.reducePow, Nat.reduceSub, IsInt] at h1 h2 hn
  simp only [fullBox] at hw
  have hx : ∀ e fi, e.root.version = version → e.root.flags = flags → e.cfo = cfoTrun → fi.size = RunSample.width flags →
      ∀ x ∈ samples, layoutV e Cat.tyTrunEntry fi (x.toGo version) = x.bits flags ∧
      ∀ j, RunSample.width flags ≤ j → j % 8 = 0 → fitsV e Cat.tyTrunEntry fi (x.toGo version) j = true :=
    fun e fi a1 a2 a3 a4 x hx => by
      have := RunSample.encoded e fi version flags hv a1 a2 a3 a4 x (hr x hx)
      exact ⟨this.1, this.2.2⟩
  have hq : ∀ c sv, cfoTrun.size "Entries" c sv = some (RunSample.width (SV.flags sv)) := fun c sv => by
    simp only [cfoTrun, RunSample.width]
    simp
  have hl : ∀ c sv, cfoTrun.length "Entries" c sv = some (SV.uint sv "SampleCount") := fun c sv => by
    simp [cfoTrun]
  have hu : ∀ f : RunSample → Nat, (∀ x ∈ samples, f x = RunSample.width flags) →
      (samples.map f).sum = RunSample.width flags * samples.length := fun f hg => by
    rw [List.map_congr_left hg, List.map_const', List.sum_replicate_nat, Nat.mul_comm]
  have hy : ∀ f : RunSample → List Bool, (∀ x ∈ samples, f x = x.bits flags) →
      samples.flatMap f = samples.flatMap (RunSample.bits flags) := fun f hg => by
    rw [List.flatMap_def, List.flatMap_def, List.map_congr_left hg]
  have hz : ∀ e fi left, e.root.version = version → e.root.flags = flags → e.cfo = cfoTrun → fi.size = RunSample.width flags →
      fi.length = samples.length → left % 8 = 0 → RunSample.width flags * samples.length ≤ left →
      fitsV e (.slice Cat.tyTrunEntry) fi (.slice (samples.map (RunSample.toGo version))) left = true := fun e fi left a1 a2 a3 a4 a5 a6 a7 => by
    refine fitsV_map _ _ _ (RunSample.width flags) _ _ _ (by rw [a5]; simp [lengthUnlimited]; omega) a5 w2 a6 a7 fun x hm => ?_
    have := RunSample.encoded e fi version flags hv a1 a2 a3 a4 x (hr x hm)
    exact ⟨by rw [this.1, this.2.1], this.2.2⟩
  by_cases c1 : flags &&& 0x1 = 0
  all_goals by_cases c2 : flags &&& 0x4 = 0
  all_goals
    have c1' := c1
    rw [Nat.and_one_is_mod] at c1'
    try simp only [Nat.mod_two_not_eq_zero] at c1'
    simp only [c1, c2, true_implies, false_implies, ne_eq, not_true_eq_false, not_false_eq_true, optInt, if_true, if_false,
      List.append_nil] at z1 z2 ⊢
    try subst z1
    try subst z2
    rcases hv with rfl | rfl
    all_goals
      refine encodes_intro' (by simp [Cat.allDefs]) ?_ rfl ?_ ?_ ?_ rfl rfl
      · rw [hh, ← hB]
        layout_tac [SV.version, SV.full, full, hw, Cat.bdTrun, Cat.fsTrun, sint, c1, c2, c1', hq, hl, SV.uint]
        exact hy _ fun x hm => (hx _ _ rfl hw rfl rfl x hm).1
      · rw [List.length_append, hlen]
        simp [ints, sint]
        omega
      · rw [List.length_append, hlen]
        simp [ints, sint]
        omega
      · rw [List.length_append, hlen]
        fits_tac [SV.version, SV.full, full, hw, hb, ints, sint, Cat.bdTrun, Cat.fsTrun, h1, h2, c1', c1, c2, hq, hl, SV.uint, hlen]
        repeat' apply And.intro
        all_goals first | omega | skip
        all_goals first
          | (refine hz _ _ _ rfl hw rfl rfl rfl ?_ ?_ <;> omega)
          | (rw [hu _ fun x hm => by rw [(hx _ _ rfl hw rfl rfl x hm).1]; exact hb' x hm]; omega)

example := trun_iso 1 0xa01 0 72 [⟨0, 300, 0, 1024⟩, ⟨0, 4000000000, 0, -512⟩] (by decide) (by decide) (by decide) (by decide) (by decide) (by decide)
  (by simp only [List.forall_mem_cons]
      exact ⟨⟨by decide, by decide, by decide, by decide⟩, ⟨by decide, by decide, by decide, by decide⟩, fun _ h => by cases h⟩)
  (by decide) {}

end Mp4.Props
