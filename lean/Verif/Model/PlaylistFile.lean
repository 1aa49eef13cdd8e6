import Verif.Model.Playlist

/-!
# The playlists of `mp4tool divide`, written to files that may fail

`Model/Playlist` has the texts; here they are written call by call.  Some calls drop the error of the file (`file.WriteString`), others return it
(`fmt.Fprintf`).  Each of them is one `Write`.
-/

namespace Mp4.Tool

open Mp4 Mp4.Str

/-- A call that writes to the file: whether its error is looked at, and the text -/
structure Call where
  checked : Bool
  text : Text
  deriving DecidableEq, Repr

/-- `file.WriteString(text)` -/
def drop (text : Text) : Call := ⟨false, text⟩

/-- `if _, err := fmt.Fprintf(file, …); err != nil { return err }` -/
def check (text : Text) : Call := ⟨true, text⟩

/-- What the file does: `F n = some k` — `Write` number `n` fails after `k` bytes -/
abbrev FileFaults := Nat → Option Nat

/-- The calls one after the other, from number `n` on: the outcome, and what is in the file -/
def puts (F : FileFaults) : Nat → List Call → Text → Out Unit × Text
  | _, [], out => (.ok (), out)
  | n, c :: l, out =>
    match F n with
    | none => puts F (n + 1) l (out ++ c.text)
    | some k => if c.checked then (.err .sink, out ++ c.text.take k) else puts F (n + 1) l (out ++ c.text.take k)

/-- The calls of `outputMasterPlaylist`, cmd/mp4tool/internal/divide/divide.go:384-401 -/
def masterCalls (tracks : Kind → Option (DTrack × Nat)) : List Call :=
  let adir := match tracks .audio with
    | some _ => Kind.audio.dir
    | none => match tracks .encAudio with
      | some _ => Kind.encAudio.dir
      | none => []
  let video := match tracks .video with
    | some t => (Kind.video.dir, some t)
    | none => match tracks .encVideo with
      | some t => (Kind.encVideo.dir, some t)
      | none => ([], none)
  [drop (lit "#EXTM3U\n")] ++
  (if adir ≠ [] then [drop (lit "#EXT-X-MEDIA:TYPE=AUDIO,URI=\"" ++ adir ++ lit "/" ++ playlistName ++
      lit "\",GROUP-ID=\"audio\",NAME=\"audio\",AUTOSELECT=YES,CHANNELS=\"2\"\n")] else []) ++
  (match video with
  | (vdir, some (t, b)) =>
    [check (lit "#EXT-X-STREAM-INF:BANDWIDTH=" ++ num 10 b ++ lit ",CODECS=\"avc1.64001f,mp4a.40.2\",RESOLUTION=" ++ num 10 t.width ++ lit "x" ++ num 10 t.height)] ++
      (if adir ≠ [] then [drop (lit ",AUDIO=\"audio\"")] else []) ++ [drop (lit "\n"), drop (vdir ++ lit "/" ++ playlistName ++ lit "\n")]
  | _ => [])

/-- divide.go:424-431 -/
def entryCalls : Nat → List F64 → List Call
  | _, [] => []
  | i, x :: l => check (lit "#EXTINF:" ++ x.text ++ lit ",\n") :: check (segmentName i ++ lit "\n") :: entryCalls (i + 1) l

/-- The calls of `outputMediaPlaylist`, divide.go:416-432 -/
def mediaCalls (cv : Conv) (l : List F64) : List Call :=
  [drop (lit "#EXTM3U\n"), drop (lit "#EXT-X-VERSION:7\n"), check (lit "#EXT-X-TARGETDURATION:" ++ inum 10 (toInt cv (maxDur l).ceil) ++ lit "\n"),
    drop (lit "#EXT-X-PLAYLIST-TYPE:VOD\n"), drop (lit "#EXT-X-MAP:URI=\"init.mp4\"\n")] ++
  entryCalls 0 l ++ [drop (lit "#EXT-X-ENDLIST\n")]

/-- The media playlists, divide.go:350-354, one after the other until one fails -/
def writeMedia (cv : Conv) (F : Kind → FileFaults) (s : DivSt) : List DTrack → (Kind → Option Text) → Out Unit × (Kind → Option Text)
  | [], m => (.ok (), m)
  | t :: ts, m =>
    match puts (F t.kind) 0 (mediaCalls cv ((s.durs t.id).map (seconds t))) [] with
    | (.ok _, x) => writeMedia cv F s ts (upd m t.kind (some x))
    | (o, x) => (o, upd m t.kind (some x))

/-- divide.go:341-355, for files that can be created; the orders as in `playlists` -/
def writePlaylists (cv : Conv) (G : FileFaults) (F : Kind → FileFaults) (os os' : List DTrack) (s : DivSt) : Out Unit × Playlists :=
  match puts G 0 (masterCalls (os.foldl (fun m t => upd m t.kind (some (t, bandwidth cv t (s.rates t.id)))) fun _ => none)) [] with
  | (.ok _, x) => let r := writeMedia cv F s os' fun _ => none; (r.1, ⟨x, r.2⟩)
  | (o, x) => (o, ⟨x, fun _ => none⟩)

end Mp4.Tool
