import Verif.Model.Divide
import Verif.Model.Stringify

/-!
# cmd/mp4tool: the playlists of `divide`

Numbers that are not negative in the format binary64 of IEEE 754, with the operations the program applies to them.  A conversion to an
integer of a number that is too large, or not finite, gives what the implementation of Go chooses; here it is a parameter.
-/

namespace Mp4.Tool

open Mp4 Mp4.Str

/-! ## float64 -/

/-- A `float64` that is not negative; `fin n` is the number n / 2^1074. -/
inductive F64 where
  | fin (n : Nat)
  | inf
  | nan
  deriving DecidableEq, Repr

/-- 2^1074, the number one -/
def f64One : Nat := 2 ^ 1074

/-- the distance of the numbers next to `q`, which has the unit 2^-1074: 53 binary digits, but no less than the unit -/
def ulp (q : Nat) : Nat := 2 ^ (Nat.log2 q - 52)

/-- `x / den` rounded to the nearest number, halves to even -/
def roundQ (x den : Nat) : Nat :=
  let w := den * ulp (x / den)
  let c := x / w
  let r := x % w
  (if 2 * r < w ∨ (2 * r = w ∧ c % 2 = 0) then c else c + 1) * ulp (x / den)

/-- numbers from 2^1024 on are infinite -/
def pack (n : Nat) : F64 := if n < 2 ^ 1024 * f64One then .fin n else .inf

/-- `float64(n)` -/
def F64.ofNat (n : Nat) : F64 := pack (roundQ (n * f64One) 1)

/-- `a / b` -/
def F64.div : F64 → F64 → F64
  | .nan, _ => .nan
  | _, .nan => .nan
  | .inf, .inf => .nan
  | .inf, .fin _ => .inf
  | .fin _, .inf => .fin 0
  | .fin a, .fin b => if b = 0 then (if a = 0 then .nan else .inf) else pack (roundQ (a * f64One) b)

/-- `a * 8`: only the exponent changes -/
def F64.times8 : F64 → F64
  | .fin a => pack (a * 8)
  | x => x

/-- `a > b` -/
def F64.gt : F64 → F64 → Bool
  | .fin a, .fin b => decide (a > b)
  | .inf, .fin _ => true
  | _, _ => false

/-- `math.Ceil` -/
def F64.ceil : F64 → F64
  | .fin a => .fin ((a + (f64One - 1)) / f64One * f64One)
  | x => x

/-- What conversions of other numbers to integers give. -/
structure Conv where
  int : F64 → Int
  uint64 : F64 → Nat

/-- `int(x)` -/
def toInt (cv : Conv) : F64 → Int
  | .fin a => if a / f64One < 2 ^ 63 then (a / f64One : Nat) else cv.int (.fin a)
  | x => cv.int x

/-- `uint64(x)` -/
def toUint64 (cv : Conv) : F64 → Nat
  | .fin a => if a / f64One < 2 ^ 64 then a / f64One else cv.uint64 (.fin a)
  | x => cv.uint64 x

/-- `%f` -/
def F64.text : F64 → Text
  | .fin a => fixedText 1074 6 a
  | .inf => lit "+Inf"
  | .nan => lit "NaN"

/-! ## The numbers -/

/-- `segment.duration`, cmd/mp4tool/internal/divide/divide.go:305 -/
def seconds (t : DTrack) (ticks : Nat) : F64 := (F64.ofNat ticks).div (F64.ofNat t.timescale)

/-- divide.go:314 -/
def mdatRate (cv : Conv) (t : DTrack) (x : Nat × Nat) : Nat := toUint64 cv ((F64.ofNat x.1).times8.div (seconds t x.2))

/-- `bandwidth` of a track, divide.go:314-317 -/
def bandwidth (cv : Conv) (t : DTrack) (l : List (Nat × Nat)) : Nat :=
  l.foldl (fun m x => if mdatRate cv t x > m then mdatRate cv t x else m) 0

/-! ## The files -/

/-- `videoDirName` etc., divide.go:14-17, 108, 121, 134, 147 -/
def Kind.dir : Kind → Text
  | .video => lit "video"
  | .audio => lit "audio"
  | .encVideo => lit "video_enc"
  | .encAudio => lit "audio_enc"

/-- `playlistFileName`, divide.go:19 -/
def playlistName : Text := lit "playlist.m3u8"

/-- `segmentFileName`, divide.go:22-24 -/
def segmentName (i : Nat) : Text := inum 10 i ++ lit ".mp4"

/-- `outputMasterPlaylist`, divide.go:359-401; `tracks` is `trackTypeMap`, with the bandwidths -/
def masterPlaylist (tracks : Kind → Option (DTrack × Nat)) : Text :=
  let adir := if (tracks .audio).isSome then Kind.audio.dir else if (tracks .encAudio).isSome then Kind.encAudio.dir else []
  let video : Text × Option (DTrack × Nat) :=
    match tracks .video with
    | some t => (Kind.video.dir, some t)
    | none =>
      match tracks .encVideo with
      | some t => (Kind.encVideo.dir, some t)
      | none => ([], none)
  lit "#EXTM3U\n" ++
  (if adir ≠ [] then lit "#EXT-X-MEDIA:TYPE=AUDIO,URI=\"" ++ adir ++ lit "/" ++ playlistName ++
      lit "\",GROUP-ID=\"audio\",NAME=\"audio\",AUTOSELECT=YES,CHANNELS=\"2\"\n" else []) ++
  (match video with
  | (vdir, some (t, b)) =>
    lit "#EXT-X-STREAM-INF:BANDWIDTH=" ++ num 10 b ++ lit ",CODECS=\"avc1.64001f,mp4a.40.2\",RESOLUTION=" ++ num 10 t.width ++ lit "x" ++ num 10 t.height ++
      (if adir ≠ [] then lit ",AUDIO=\"audio\"" else []) ++ lit "\n" ++ vdir ++ lit "/" ++ playlistName ++ lit "\n"
  | _ => [])

/-- `maxDur`, divide.go:410-415 -/
def maxDur (l : List F64) : F64 := l.foldl (fun m x => if x.gt m then x else m) (.fin 0)

/-- divide.go:424-431 -/
def mediaEntries : Nat → List F64 → Text
  | _, [] => []
  | i, x :: l => lit "#EXTINF:" ++ x.text ++ lit ",\n" ++ segmentName i ++ lit "\n" ++ mediaEntries (i + 1) l

/-- `outputMediaPlaylist`, divide.go:403-434 -/
def mediaPlaylist (cv : Conv) (l : List F64) : Text :=
  lit "#EXTM3U\n" ++ lit "#EXT-X-VERSION:7\n" ++
  lit "#EXT-X-TARGETDURATION:" ++ inum 10 (toInt cv (maxDur l).ceil) ++ lit "\n" ++
  lit "#EXT-X-PLAYLIST-TYPE:VOD\n" ++ lit "#EXT-X-MAP:URI=\"init.mp4\"\n" ++
  mediaEntries 0 l ++ lit "#EXT-X-ENDLIST\n"

/-- The playlists: that of all, and those of the directories. -/
structure Playlists where
  master : Text
  media : Kind → Option Text

/-- divide.go:341-354.  The loops are over a map: `os` and `os'` are the tracks in the orders in which they come. -/
def playlists (cv : Conv) (os os' : List DTrack) (s : DivSt) : Playlists where
  master := masterPlaylist (os.foldl (fun m t => upd m t.kind (some (t, bandwidth cv t (s.rates t.id)))) fun _ => none)
  media := os'.foldl (fun m t => upd m t.kind (some (mediaPlaylist cv ((s.durs t.id).map (seconds t))))) fun _ => none

end Mp4.Tool
