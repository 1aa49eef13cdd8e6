import Verif.Spec.PlaylistFile
import Verif.Props.Playlist

/-!
# C94: what `mp4tool divide` reports when a playlist cannot be written
-/

namespace Mp4.Props

open Mp4 Mp4.Spec Mp4.Tool Mp4.Str

/-! ## The calls -/

/-- the text of the calls -/
def texts (l : List Call) : Text := l.flatMap (·.text)

theorem texts_nil : texts [] = [] := rfl
theorem texts_cons (c : Call) (l : List Call) : texts (c :: l) = c.text ++ texts l := rfl
theorem texts_append (a b : List Call) : texts (a ++ b) = texts a ++ texts b := List.flatMap_append

theorem puts_step (F : FileFaults) (n : Nat) (c : Call) (l : List Call) (out : Text) : puts F n (c :: l) out =
    match F n with
    | none => puts F (n + 1) l (out ++ c.text)
    | some k => if c.checked then (.err .sink, out ++ c.text.take k) else puts F (n + 1) l (out ++ c.text.take k) := (rfl)

/-- Success: no call failed that is looked at; otherwise the error of the file is returned. -/
theorem puts_outcome (F : FileFaults) : ∀ (l : List Call) (n : Nat) (out : Text),
    ((puts F n l out).1 = .ok () ∧ ∀ i c, l[i]? = some c → c.checked = true → F (n + i) = none) ∨
    ((puts F n l out).1 = .err .sink ∧ ∃ i c k, l[i]? = some c ∧ c.checked = true ∧ F (n + i) = some k)
  | [], n, out => .inl ⟨rfl, fun i c h => by simp at h⟩
  | c :: l, n, out => by
    have step : ∀ o, ((puts F (n + 1) l o).1 = .ok () → (c.checked = true → F n = none) → ∀ i c', (c :: l)[i]? = some c' → c'.checked = true → F (n + i) = none) ∧
        ((∃ i c' k, l[i]? = some c' ∧ c'.checked = true ∧ F (n + 1 + i) = some k) → ∃ i c' k, (c :: l)[i]? = some c' ∧ c'.checked = true ∧ F (n + i) = some k) := by
      intro o
      constructor
      · intro h h0 i c' e hc
        rcases puts_outcome F l (n + 1) o with ⟨-, h2⟩ | ⟨h2, -⟩
        · cases i with
          | zero => simp only [List.getElem?_cons_zero, Option.some.injEq] at e; subst e; exact h0 hc
          | succ i => rw [List.getElem?_cons_succ] at e; rw [show n + (i + 1) = n + 1 + i by omega]; exact h2 i c' e hc
        · rw [h2] at h; cases h
      · rintro ⟨i, c', k, e, hc, hk⟩
        exact ⟨i + 1, c', k, by rw [List.getElem?_cons_succ]; exact e, hc, by rw [show n + (i + 1) = n + 1 + i by omega]; exact hk⟩
    rw [puts_step]
    cases hF : F n with
    | none =>
      simp only
      rcases puts_outcome F l (n + 1) (out ++ c.text) with ⟨h1, -⟩ | ⟨h1, h2⟩
      · exact .inl ⟨h1, (step _).1 h1 fun _ => hF⟩
      · exact .inr ⟨h1, (step out).2 h2⟩
    | some k =>
      simp only
      by_cases hc : c.checked = true
      · rw [if_pos hc]
        exact .inr ⟨rfl, 0, c, k, rfl, hc, hF⟩
      · rw [if_neg hc]
        rcases puts_outcome F l (n + 1) (out ++ c.text.take k) with ⟨h1, -⟩ | ⟨h1, h2⟩
        · exact .inl ⟨h1, (step _).1 h1 fun h => absurd h hc⟩
        · exact .inr ⟨h1, (step out).2 h2⟩

/-- a file that takes nothing any more -/
theorem puts_dead (F : FileFaults) : ∀ (l : List Call) (n : Nat) (out : Text), (∀ m, n ≤ m → F m = some 0) → (puts F n l out).2 = out
  | [], n, out, h => rfl
  | c :: l, n, out, h => by
    rw [puts_step, h n (Nat.le_refl _)]
    simp only [List.take_zero, List.append_nil]
    split
    · rfl
    · exact puts_dead F l (n + 1) out fun m hm => h m (by omega)

theorem puts_full {F : FileFaults} (hF : Full F) : ∀ (l : List Call) (n : Nat) (out : Text), ∃ x, (puts F n l out).2 = out ++ x ∧ x <+: texts l
  | [], n, out => ⟨[], by simp [puts], List.prefix_rfl⟩
  | c :: l, n, out => by
    rw [puts_step, texts_cons]
    cases h : F n with
    | none =>
      obtain ⟨x, h1, h2⟩ := puts_full hF l (n + 1) (out ++ c.text)
      exact ⟨c.text ++ x, by simp only [h1, List.append_assoc], (List.prefix_append_right_inj _).2 h2⟩
    | some k =>
      refine ⟨c.text.take k, ?_, (List.take_prefix _ _).trans (List.prefix_append _ _)⟩
      simp only
      split
      · rfl
      · exact puts_dead F l (n + 1) _ fun m hm => hF n k m h hm

theorem puts_run (F : FileFaults) : ∀ (a b : List Call) (n : Nat) (out : Text), (∀ i, i < a.length → F (n + i) = none) →
    puts F n (a ++ b) out = puts F (n + a.length) b (out ++ texts a)
  | [], b, n, out, h => by simp [texts_nil]
  | c :: a, b, n, out, h => by
    have h0 : F n = none := h 0 (by simp)
    rw [List.cons_append, puts_step, h0]
    simp only
    rw [puts_run F a b (n + 1) _ fun i hi => by rw [show n + 1 + i = n + (i + 1) by omega]; exact h (i + 1) (by simpa using hi), texts_cons, List.length_cons,
      List.append_assoc, show n + 1 + a.length = n + (a.length + 1) by omega]

/-- The error of a call that is looked at shows all failures before it. -/
theorem puts_before {F : FileFaults} (hF : Full F) (a b : List Call) (c : Call) (hc : c.checked = true) (h : (puts F 0 (a ++ c :: b) []).1 = .ok ()) :
    texts (a ++ [c]) <+: (puts F 0 (a ++ c :: b) []).2 := by
  rcases puts_outcome F (a ++ c :: b) 0 [] with ⟨-, h2⟩ | ⟨h2, -⟩
  · have hn : F a.length = none := by
      have := h2 a.length c (by simp) hc
      simpa using this
    have hall : ∀ i, i < (a ++ [c]).length → F (0 + i) = none := by
      intro i hi
      rw [Nat.zero_add]
      cases e : F i with
      | none => rfl
      | some k =>
        by_cases hia : i = a.length
        · rw [hia, hn] at e; cases e
        · have := hF i k a.length e (by simp at hi; omega)
          rw [hn] at this; cases this
    rw [show a ++ c :: b = (a ++ [c]) ++ b by simp, puts_run F (a ++ [c]) b 0 [] hall]
    obtain ⟨x, e, -⟩ := puts_full hF b (0 + (a ++ [c]).length) ([] ++ texts (a ++ [c]))
    rw [e]
    exact ⟨x, by simp⟩
  · rw [h2] at h; cases h

theorem puts_sound {F : FileFaults} (hF : Sound F) (l : List Call) : puts F 0 l [] = (.ok (), texts l) := by
  have := puts_run F l [] 0 [] fun i _ => hF _
  rw [List.append_nil] at this
  rw [this]
  simp [puts]

/-! ## The texts -/

theorem entry_texts : ∀ (i : Nat) (l : List F64), texts (entryCalls i l) = mediaEntries i l
  | _, [] => rfl
  | i, x :: l => by rw [entryCalls, mediaEntries, texts_cons, texts_cons, entry_texts (i + 1) l]; simp [check, List.append_assoc]

theorem media_texts (cv : Conv) (l : List F64) : texts (mediaCalls cv l) = mediaPlaylist cv l := by
  unfold mediaCalls mediaPlaylist
  rw [texts_append, texts_append, entry_texts]
  simp only [texts_cons, texts_nil, drop, check, List.append_assoc, List.append_nil]

theorem master_texts (tracks : Kind → Option (DTrack × Nat)) : texts (masterCalls tracks) = masterPlaylist tracks := by
  unfold masterCalls masterPlaylist
  cases tracks .audio <;> cases tracks .encAudio <;> cases tracks .video <;> cases tracks .encVideo <;>
    simp only [Kind.dir, texts_append, texts_cons, texts_nil, drop, check, List.append_assoc, List.append_nil] <;> (repeat' split) <;>
    simp_all [texts_cons, texts_nil]

theorem entry_last : ∀ (i : Nat) (l : List F64), l ≠ [] → ∃ a c, entryCalls i l = a ++ [c] ∧ c.checked = true
  | i, [x], _ => ⟨[_], _, rfl, rfl⟩
  | i, x :: y :: l, _ => by
    obtain ⟨a, c, h1, h2⟩ := entry_last (i + 1) (y :: l) (by simp)
    exact ⟨_ :: _ :: a, c, by rw [entryCalls, h1]; rfl, h2⟩

/-! ## The theorems -/

/-- **C94**, without failures — The files have the texts of C65, and success is reported. -/
theorem playlists_written (cv : Conv) {G : FileFaults} {F : Kind → FileFaults} (hG : Sound G) (hF : ∀ k, Sound (F k)) (os os' : List DTrack) (s : DivSt) :
    writePlaylists cv G F os os' s = (.ok (), playlists cv os os' s) := by
  have h : ∀ (l : List DTrack) (m : Kind → Option Text), writeMedia cv F s l m =
      (.ok (), l.foldl (fun m t => upd m t.kind (some (mediaPlaylist cv ((s.durs t.id).map (seconds t))))) m) := by
    intro l
    induction l with
    | nil => intro m; rfl
    | cons t l ih =>
      intro m
      rw [writeMedia, puts_sound (hF t.kind), media_texts]
      exact ih _
  unfold writePlaylists playlists
  rw [puts_sound hG, master_texts]
  simp only
  rw [h]

/-- **C94**, one playlist — If success is reported for the playlist of a track and the file takes nothing after a failure: the file has the beginning of the text, and if there are segments, all
of it except perhaps the last line.

Missing for the full statement, the whole text: `media_success_lost`. -/
theorem media_success_partial (cv : Conv) (l : List F64) {F : FileFaults} (hF : Full F) (h : (puts F 0 (mediaCalls cv l) []).1 = .ok ()) :
    (puts F 0 (mediaCalls cv l) []).2 <+: mediaPlaylist cv l ∧
    (l ≠ [] → ∃ head, mediaPlaylist cv l = head ++ lit "#EXT-X-ENDLIST\n" ∧ head <+: (puts F 0 (mediaCalls cv l) []).2) := by
  constructor
  · obtain ⟨x, h1, h2⟩ := puts_full hF (mediaCalls cv l) 0 []
    rw [h1, ← media_texts, List.nil_append]
    exact h2
  · intro hl
    obtain ⟨a, c, h1, h2⟩ := entry_last 0 l hl
    have e : ∃ pre, mediaCalls cv l = pre ++ entryCalls 0 l ++ [drop (lit "#EXT-X-ENDLIST\n")] := ⟨_, rfl⟩
    obtain ⟨pre, e⟩ := e
    rw [h1, show pre ++ (a ++ [c]) ++ [drop (lit "#EXT-X-ENDLIST\n")] = (pre ++ a) ++ c :: [drop (lit "#EXT-X-ENDLIST\n")] by simp] at e
    refine ⟨texts (pre ++ a ++ [c]), ?_, ?_⟩
    · rw [← media_texts, e, show (pre ++ a) ++ c :: [drop (lit "#EXT-X-ENDLIST\n")] = (pre ++ a ++ [c]) ++ [drop (lit "#EXT-X-ENDLIST\n")] by simp, texts_append]
      simp [texts_cons, texts_nil, drop]
    · rw [e] at h ⊢
      exact puts_before hF _ _ c h2 h

theorem writeMedia_kept (cv : Conv) (F : Kind → FileFaults) (s : DivSt) (k : Kind) : ∀ (l : List DTrack) (m : Kind → Option Text), (∀ t ∈ l, t.kind ≠ k) →
    (writeMedia cv F s l m).2 k = m k
  | [], m, h => rfl
  | t :: l, m, h => by
    rw [writeMedia]
    have hk : upd m t.kind (some (puts (F t.kind) 0 (mediaCalls cv ((s.durs t.id).map (seconds t))) []).2) k = m k :=
      if_neg (fun e => h t (by simp) e.symm)
    generalize puts (F t.kind) 0 (mediaCalls cv ((s.durs t.id).map (seconds t))) [] = x at hk
    obtain ⟨o, x⟩ := x
    cases o with
    | ok _ => exact (writeMedia_kept cv F s k l _ fun t ht => h t (by simp [ht])).trans hk
    | err _ => exact hk
    | panic => exact hk
    | hang => exact hk

theorem writeMedia_ok (cv : Conv) (F : Kind → FileFaults) (s : DivSt) : ∀ (l : List DTrack) (m : Kind → Option Text), l.Pairwise (fun a b => a.kind ≠ b.kind) →
    (writeMedia cv F s l m).1 = .ok () → ∀ t ∈ l, (puts (F t.kind) 0 (mediaCalls cv ((s.durs t.id).map (seconds t))) []).1 = .ok () ∧
      (writeMedia cv F s l m).2 t.kind = some (puts (F t.kind) 0 (mediaCalls cv ((s.durs t.id).map (seconds t))) []).2
  | [], m, _, _, t, ht => by simp at ht
  | u :: l, m, hp, h, t, ht => by
    rw [List.pairwise_cons] at hp
    rw [writeMedia] at h ⊢
    cases hx : puts (F u.kind) 0 (mediaCalls cv ((s.durs u.id).map (seconds u))) [] with
    | mk o x =>
      rw [hx] at h
      cases o with
      | ok y =>
        simp only at h ⊢
        rcases List.mem_cons.1 ht with rfl | ht
        · rw [hx]
          refine ⟨rfl, ?_⟩
          rw [writeMedia_kept cv F s t.kind l _ fun v hv e => hp.1 v hv e.symm]
          exact if_pos rfl
        · exact writeMedia_ok cv F s l _ hp.2 h t ht
      | err _ => simp only at h; cases h
      | panic => simp only at h; cases h
      | hang => simp only at h; cases h

/-- **C94** — If `divide` reports success and a file takes nothing after a failure: the playlist of every track is the beginning of the one of C65, and if the track has segments, it
is complete except perhaps for the last line, `#EXT-X-ENDLIST`. -/
theorem playlists_success_partial (cv : Conv) (G : FileFaults) {F : Kind → FileFaults} (hF : ∀ k, Full (F k)) (os os' : List DTrack) (s : DivSt)
    (hk : os'.Pairwise fun a b => a.kind ≠ b.kind) (h : (writePlaylists cv G F os os' s).1 = .ok ()) (t : DTrack) (ht : t ∈ os') :
    ∃ whole out, (playlists cv os os' s).media t.kind = some whole ∧ (writePlaylists cv G F os os' s).2.media t.kind = some out ∧ out <+: whole ∧
      (s.durs t.id ≠ [] → ∃ head, whole = head ++ lit "#EXT-X-ENDLIST\n" ∧ head <+: out) := by
  have hp : (playlists cv os os' s).media t.kind = some (mediaPlaylist cv ((s.durs t.id).map (seconds t))) := by
    unfold playlists
    simp only
    rw [fold_upd _ _ _ hk, find_mem hk ht]
    rfl
  unfold writePlaylists at h ⊢
  cases hx : puts G 0 (masterCalls (os.foldl (fun m t => upd m t.kind (some (t, bandwidth cv t (s.rates t.id)))) fun _ => none)) [] with
  | mk o x =>
    rw [hx] at h
    cases o with
    | ok y =>
      simp only at h ⊢
      obtain ⟨h1, h2⟩ := writeMedia_ok cv F s os' _ hk h t ht
      obtain ⟨h3, h4⟩ := media_success_partial cv _ (hF t.kind) h1
      exact ⟨_, _, hp, h2, h3, fun hd => h4 (by simpa using hd)⟩
    | err _ => simp only at h; cases h
    | panic => simp only at h; cases h
    | hang => simp only at h; cases h

/-- **C94**, which failures are reported — For the playlist of a track: exactly those when the target duration and the segments are written. -/
theorem media_success_iff (cv : Conv) (l : List F64) (F : FileFaults) :
    (puts F 0 (mediaCalls cv l) []).1 = .ok () ↔ F 2 = none ∧ ∀ i, i < 2 * l.length → F (5 + i) = none := by
  have hlen : ∀ (i : Nat) (l : List F64), (entryCalls i l).length = 2 * l.length := by
    intro i l
    induction l generalizing i with
    | nil => rfl
    | cons x l ih => rw [entryCalls, List.length_cons, List.length_cons, ih, List.length_cons]; omega
  have hchk : ∀ (i : Nat) (l : List F64), ∀ c ∈ entryCalls i l, c.checked = true := by
    intro i l
    induction l generalizing i with
    | nil => intro c hc; cases hc
    | cons x l ih =>
      intro c hc
      rw [entryCalls] at hc
      rcases List.mem_cons.1 hc with rfl | hc
      · rfl
      · rcases List.mem_cons.1 hc with rfl | hc
        · rfl
        · exact ih _ c hc
  have hget : ∀ i c, (mediaCalls cv l)[i]? = some c → c.checked = true → i = 2 ∨ ∃ j, j < 2 * l.length ∧ i = 5 + j := by
    intro i c e hc
    match i with
    | 0 => cases e; cases hc
    | 1 => cases e; cases hc
    | 2 => exact .inl rfl
    | 3 => cases e; cases hc
    | 4 => cases e; cases hc
    | j + 5 =>
      have e' : (entryCalls 0 l ++ [drop (lit "#EXT-X-ENDLIST\n")])[j]? = some c := e
      by_cases hj : j < (entryCalls 0 l).length
      · exact .inr ⟨j, by rw [hlen] at hj; exact hj, by omega⟩
      · rw [List.getElem?_append_right (by omega)] at e'
        obtain ⟨h1, -⟩ := List.getElem?_eq_some_iff.1 e'
        have h0 : j - (entryCalls 0 l).length = 0 := by simpa using h1
        rw [h0] at e'
        cases e'
        cases hc
  constructor
  · intro h
    rcases puts_outcome F (mediaCalls cv l) 0 [] with ⟨-, h2⟩ | ⟨h2, -⟩
    · refine ⟨by simpa using h2 2 _ rfl rfl, fun i hi => ?_⟩
      have hi' : i < (entryCalls 0 l).length := by rw [hlen]; exact hi
      have e : (mediaCalls cv l)[5 + i]? = some ((entryCalls 0 l)[i]) := by
        rw [show 5 + i = i + 5 by omega]
        show (entryCalls 0 l ++ [drop (lit "#EXT-X-ENDLIST\n")])[i]? = _
        rw [List.getElem?_append_left hi', List.getElem?_eq_getElem hi']
      have := h2 (5 + i) _ e (hchk 0 l _ (List.getElem_mem hi'))
      rwa [Nat.zero_add] at this
    · rw [h2] at h; cases h
  · rintro ⟨h2, hi⟩
    rcases puts_outcome F (mediaCalls cv l) 0 [] with ⟨h, -⟩ | ⟨-, i, c, k, e, hc, hk⟩
    · exact h
    · rw [Nat.zero_add] at hk
      rcases hget i c e hc with rfl | ⟨j, hj, rfl⟩
      · rw [h2] at hk; cases hk
      · rw [hi j hj] at hk; cases hk

/-- **C94**, finding — Whatever the segments are: if the disk is full just before the last line, success is reported for a playlist without `#EXT-X-ENDLIST`, which players take for one that is
still being written. -/
theorem media_success_lost (cv : Conv) (l : List F64) : ∃ F head, Full F ∧ mediaPlaylist cv l = head ++ lit "#EXT-X-ENDLIST\n" ∧
    puts F 0 (mediaCalls cv l) [] = (.ok (), head) := by
  have e : ∃ pre, mediaCalls cv l = pre ++ [drop (lit "#EXT-X-ENDLIST\n")] := ⟨_, rfl⟩
  obtain ⟨pre, e⟩ := e
  refine ⟨fun n => if n < pre.length then none else some 0, texts pre, ?_, ?_, ?_⟩
  · intro n k m h hm
    simp only at h ⊢
    by_cases hn : n < pre.length
    · rw [if_pos hn] at h; cases h
    · exact if_neg (by omega)
  · rw [← media_texts, e, texts_append]
    simp [texts_cons, texts_nil, drop]
  · rw [e, puts_run _ pre _ 0 [] fun i hi => by simp [hi], puts_step]
    simp [drop, puts]

/-- **C94**, finding — If only the first `Write` fails, success is reported for a playlist that does not begin with `#EXTM3U`, and is none. -/
theorem media_head_lost (cv : Conv) (l : List F64) : ∃ F out, (∀ n, n ≠ 0 → F n = none) ∧ mediaPlaylist cv l = lit "#EXTM3U\n" ++ out ∧
    puts F 0 (mediaCalls cv l) [] = (.ok (), out) := by
  have e : ∃ rest, mediaCalls cv l = drop (lit "#EXTM3U\n") :: rest := ⟨_, rfl⟩
  obtain ⟨rest, e⟩ := e
  refine ⟨fun n => if n = 0 then some 0 else none, texts rest, fun n hn => if_neg hn, ?_, ?_⟩
  · rw [← media_texts, e]; rfl
  · rw [e, puts_step]
    simp only [if_true, drop, Bool.false_eq_true, if_false, List.take_zero, List.append_nil]
    have := puts_run (fun n => if n = 0 then some 0 else none) rest [] 1 [] fun i _ => if_neg (by omega)
    rw [List.append_nil] at this
    rw [Nat.zero_add, this]
    simp [puts]

/-- **C94**, finding — For a file without pictures nothing is looked at when the master playlist is written: success is reported whatever fails, even if the file remains empty. -/
theorem master_never_fails (tracks : Kind → Option (DTrack × Nat)) (hv : tracks .video = none) (he : tracks .encVideo = none) :
    (∀ F, (puts F 0 (masterCalls tracks) []).1 = .ok ()) ∧ puts (fun _ => some 0) 0 (masterCalls tracks) [] = (.ok (), []) := by
  have hc : ∀ c ∈ masterCalls tracks, c.checked = false := by
    unfold masterCalls
    rw [hv, he]
    intro c hc
    simp only [List.append_nil, List.mem_append, List.mem_singleton] at hc
    rcases hc with rfl | hc
    · rfl
    · have one : ∀ (p : Prop) [Decidable p] (x : Text), (c ∈ if p then [drop x] else []) → c.checked = false := by
        intro p _ x h
        by_cases hp : p
        · rw [if_pos hp, List.mem_singleton] at h; rw [h]; rfl
        · rw [if_neg hp] at h; cases h
      exact one _ _ hc
  have h : ∀ F, (puts F 0 (masterCalls tracks) []).1 = .ok () := by
    intro F
    rcases puts_outcome F (masterCalls tracks) 0 [] with ⟨h, -⟩ | ⟨-, i, c, k, e, h, -⟩
    · exact h
    · rw [hc c (List.mem_of_getElem? e)] at h; cases h
  exact ⟨h, Prod.ext (h _) (puts_dead _ _ 0 [] fun _ _ => rfl)⟩

/-- **C94**, the master playlist — If there are pictures, success is reported and the file takes nothing after a failure: the text is there at least up to the width and height. -/
theorem master_success_partial (tracks : Kind → Option (DTrack × Nat)) (t : DTrack) (b : Nat)
    (hv : tracks .video = some (t, b) ∨ (tracks .video = none ∧ tracks .encVideo = some (t, b))) {F : FileFaults} (hF : Full F)
    (h : (puts F 0 (masterCalls tracks) []).1 = .ok ()) :
    (puts F 0 (masterCalls tracks) []).2 <+: masterPlaylist tracks ∧ ∃ head,
      head ++ (lit "#EXT-X-STREAM-INF:BANDWIDTH=" ++ num 10 b ++ lit ",CODECS=\"avc1.64001f,mp4a.40.2\",RESOLUTION=" ++ num 10 t.width ++ lit "x" ++ num 10 t.height) <+:
        (puts F 0 (masterCalls tracks) []).2 := by
  constructor
  · obtain ⟨x, h1, h2⟩ := puts_full hF (masterCalls tracks) 0 []
    rw [h1, ← master_texts, List.nil_append]
    exact h2
  · have e : ∃ a c', masterCalls tracks =
        a ++ check (lit "#EXT-X-STREAM-INF:BANDWIDTH=" ++ num 10 b ++ lit ",CODECS=\"avc1.64001f,mp4a.40.2\",RESOLUTION=" ++ num 10 t.width ++ lit "x" ++ num 10 t.height) :: c' := by
      unfold masterCalls
      rcases hv with hv | ⟨hv, he⟩
      · rw [hv]
        exact ⟨_, _, rfl⟩
      · rw [hv, he]
        exact ⟨_, _, rfl⟩
    obtain ⟨a, c', e⟩ := e
    rw [e] at h ⊢
    have := puts_before hF _ _ _ rfl h
    rw [texts_append] at this
    exact ⟨texts a, by simpa [texts_cons, texts_nil, check] using this⟩

/-! ## Cases -/

/-- the disk is full after these bytes of this `Write` -/
def fullAt (n k : Nat) : FileFaults := fun i => if i < n then none else if i = n then some k else some 0

theorem fullAt_full (n k : Nat) : Full (fullAt n k) := by
  intro i j m h hm
  unfold fullAt at *
  by_cases h1 : i < n
  · rw [if_pos h1] at h; cases h
  · rw [if_neg (by omega), if_neg (by omega)]

/-- Two segments, of 1 second each.  The disk is full in the last line: success, and `#EXT-` at the end; it is full in the line before: an error. -/
example : (match puts (fullAt 9 5) 0 (mediaCalls ⟨fun _ => 0, fun _ => 0⟩ [.fin f64One, .fin f64One]) [] with
      | (.ok (), out) => decide (out = lit "#EXTM3U\n#EXT-X-VERSION:7\n#EXT-X-TARGETDURATION:1\n#EXT-X-PLAYLIST-TYPE:VOD\n#EXT-X-MAP:URI=\"init.mp4\"\n#EXTINF:1.000000,\n0.mp4\n#EXTINF:1.000000,\n1.mp4\n#EXT-")
      | _ => false) = true ∧
    (match puts (fullAt 8 5) 0 (mediaCalls ⟨fun _ => 0, fun _ => 0⟩ [.fin f64One, .fin f64One]) [] with
      | (.err .sink, _) => true
      | _ => false) = true := by decide +kernel

/-- The tracks of `divFile`: the disk of one file is full at the last line of the playlist of the audio track -/
example : (match writePlaylists ⟨fun _ => 0, fun _ => 0⟩ (fun _ => none) (fun k => if k = .audio then fullAt 7 0 else fun _ => none) divFileTracks divFileSwapped (divide divFile 20).2.2 with
    | (.ok (), p) => p.media .audio == some (lit "#EXTM3U\n#EXT-X-VERSION:7\n#EXT-X-TARGETDURATION:1\n#EXT-X-PLAYLIST-TYPE:VOD\n#EXT-X-MAP:URI=\"init.mp4\"\n#EXTINF:0.016000,\n0.mp4\n")
    | _ => false) = true := by
  decide +kernel

end Mp4.Props
