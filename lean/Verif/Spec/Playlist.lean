import Verif.Spec.StringifyText
import Verif.Model.Divide

/-!
# What is to be in the playlists of `mp4tool divide`

The format is that of HTTP Live Streaming (RFC 8216).
-/

namespace Mp4.Playlist

open Mp4.Str

/-- lines of text -/
def lines (l : List Text) : Text := l.flatMap fun x => x ++ lit "\n"

/-- a number of millionths, as a decimal fraction with six places -/
def decimal (m : Nat) : Text :=
  Text.dec (m / 10 ^ 6) ++ lit "." ++ List.replicate (6 - (Text.dec (m % 10 ^ 6)).length) 48 ++ Text.dec (m % 10 ^ 6)

/-- the two lines for the segment `i` of `m` millionths of a second -/
def entry (m i : Nat) : List Text := [lit "#EXTINF:" ++ decimal m ++ lit ",", Text.dec i ++ lit ".mp4"]

/-- The playlist of a track: the target duration, and the segments with their durations in millionths of a second. -/
def media (target : Nat) (ms : List Nat) : List Text :=
  [lit "#EXTM3U", lit "#EXT-X-VERSION:7", lit "#EXT-X-TARGETDURATION:" ++ Text.dec target, lit "#EXT-X-PLAYLIST-TYPE:VOD",
    lit "#EXT-X-MAP:URI=\"init.mp4\""] ++ (ms.zipIdx.flatMap fun x => entry x.1 x.2) ++ [lit "#EXT-X-ENDLIST"]

/-- `m` is the number of millionths (or one of two) next to `ticks / timescale`. -/
def Nearest (m ticks timescale : Nat) : Prop :=
  2 * (m * timescale) ≤ 2 * (ticks * 10 ^ 6) + timescale ∧ 2 * (ticks * 10 ^ 6) ≤ 2 * (m * timescale) + timescale

/-- `target` is the least number of seconds that is no less than the duration of any segment. -/
def Target (target timescale : Nat) (ticks : List Nat) : Prop :=
  (∀ a ∈ ticks, a ≤ target * timescale) ∧ ∀ T, (∀ a ∈ ticks, a ≤ T * timescale) → target ≤ T

/-- The playlist of all: the directory with the sound, and the directory with the pictures, their bit rate, width and height. -/
def master (audio : Option Text) (video : Option (Text × Nat × Nat × Nat)) : List Text :=
  [lit "#EXTM3U"] ++
  (match audio with
  | none => []
  | some a => [lit "#EXT-X-MEDIA:TYPE=AUDIO,URI=\"" ++ a ++ lit "/playlist.m3u8\",GROUP-ID=\"audio\",NAME=\"audio\",AUTOSELECT=YES,CHANNELS=\"2\""]) ++
  (match video with
  | none => []
  | some (v, rate, width, height) =>
    [lit "#EXT-X-STREAM-INF:BANDWIDTH=" ++ Text.dec rate ++ lit ",CODECS=\"avc1.64001f,mp4a.40.2\",RESOLUTION=" ++ Text.dec width ++ lit "x" ++ Text.dec height ++
      (if audio.isSome then lit ",AUDIO=\"audio\"" else []), v ++ lit "/playlist.m3u8"])

/-- `r` is the number of bits per second of `size` bytes in `ticks / timescale` seconds, rounded down, up to a relative error of 2^-51. -/
def Rate (r size ticks timescale : Nat) : Prop :=
  r * ticks * 2 ^ 51 ≤ 8 * size * timescale * (2 ^ 51 + 1) ∧ 8 * size * timescale * (2 ^ 51 - 1) < (r + 1) * ticks * 2 ^ 51

/-- `r` is the rate of one of the pieces (size and duration), and none has a greater rate; without pieces it is 0. -/
def Peak (r timescale : Nat) (l : List (Nat × Nat)) : Prop :=
  (l = [] → r = 0) ∧ (l ≠ [] → ∃ x ∈ l, Rate r x.1 x.2 timescale) ∧ ∀ x ∈ l, ∃ q, Rate q x.1 x.2 timescale ∧ q ≤ r

/-- the directory of a track -/
def dirName : Tool.Kind → Text
  | .video => lit "video"
  | .audio => lit "audio"
  | .encVideo => lit "video_enc"
  | .encAudio => lit "audio_enc"

/-- the track of the first of these kinds that there is -/
def firstOf (ts : List Tool.DTrack) (ks : List Tool.Kind) : Option Tool.DTrack := ks.findSome? fun k => ts.find? fun t => t.kind == k

end Mp4.Playlist
