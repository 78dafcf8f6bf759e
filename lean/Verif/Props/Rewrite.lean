import Verif.Proofs.Rewrite
import Verif.Props.File
/-!
# C81: an accepted replay can be written back
-/
namespace Boxcars.Props
open Boxcars Spec

variable (check : CrcCheck) (np : NetworkParse) (env : Env)

/-- Equal apart from the sizes and checksums of the two sections. -/
def SameContent (r r' : Replay) : Prop :=
  { r with headerSize := r'.headerSize, headerCrc := r'.headerCrc
           contentSize := r'.contentSize, contentCrc := r'.contentCrc } = r'

/-- C81. What an accepted file says is representable, however sloppily the file is written.
Writing it gives a file at most a quarter longer that every checksum policy accepts and
that has the same content. -/
theorem write_back (data : Bytes) (r : Replay) (hl : data.length ≤ env.isizeMax)
    (h : parseWith check np env data = .ok r) :
    ∃ x rest, FileSecs (decide (check = .always)) x data rest ∧
      HeaderOk x.header ∧ BodyOk x.body ∧
      4 * (encFile x.header x.body).length + 5 * rest.length ≤ 5 * data.length ∧
      ∀ check' rest', (encFile x.header x.body).length < 2 ^ 31 →
        (encFile x.header x.body ++ rest').length ≤ env.isizeMax →
        ∃ r', parseWith check' np env (encFile x.header x.body ++ rest') = .ok r' ∧
          SameContent r r' := by
  obtain ⟨x, rest, net, hs, hn, rfl⟩ := parseWith_ok_of hl h
  obtain ⟨hh, hb, hlen⟩ := fileSecs_back hs
  refine ⟨x, rest, hs, hh, hb, hlen, fun check' rest' hl' hr' => ?_⟩
  refine ⟨(fileSections x.header x.body).replay net, ?_, rfl⟩
  have hs' := fileSecs_enc hh hb rest' hl'
  rw [parseWith_ok_iff_all _ _ _ _ hr']
  obtain ⟨bh, bb, h1, h2, h3, h4, h5, h6⟩ := hs'
  exact ⟨_, rest', net, ⟨bh, bb, h1, h2, h3, h4, h5, fun _ => h6 rfl⟩, Within.of_append hl', hn, rfl⟩

/-- C81. For files below 1.6 GiB the written file is always short enough to be read. -/
theorem write_back_small (data : Bytes) (r : Replay) (hl : 5 * data.length < 4 * 2 ^ 31)
    (h : parseWith check np env data = .ok r) :
    ∃ head body, HeaderOk head ∧ BodyOk body ∧ ∀ check', ∃ r',
      parseWith check' np env (encFile head body) = .ok r' ∧ SameContent r r' := by
  obtain ⟨x, rest, _, hh, hb, hlen, hp⟩ := write_back check np env data r (Room.of_lt (by omega)).1 h
  refine ⟨x.header, x.body, hh, hb, fun check' => ?_⟩
  have := hp check' [] (by omega) (Room.of_lt (by rw [List.append_nil]; omega)).1
  rwa [List.append_nil] at this

/-- C81. Written files are fixed: reading one and writing it back gives the same bytes. -/
theorem write_fixed (c : Bool) (h : Header) (b : ReplayBody) (hh : HeaderOk h) (hb : BodyOk b)
    (rest rest' : Bytes) (hl : (encFile h b).length < 2 ^ 31)
    (hr : (encFile h b ++ rest).length < 2 ^ 63) (x : Sections)
    (hx : FileSecs c x (encFile h b ++ rest) rest') :
    x = fileSections h b ∧ rest' = rest ∧ encFile x.header x.body = encFile h b := by
  have hs := fileSecs_enc hh hb rest hl
  obtain ⟨rfl, rfl⟩ := FileSecs_unique hr hx hs
  exact ⟨rfl, rfl, rfl⟩

/-- C81. Two files are written alike exactly if they say the same. -/
theorem written_alike (c c' : Bool) (x y : Sections) (d d' rest rest' : Bytes)
    (hx : FileSecs c x d rest) (hy : FileSecs c' y d' rest')
    (hl : (encFile x.header x.body).length < 2 ^ 31) :
    encFile x.header x.body = encFile y.header y.body ↔ x.header = y.header ∧ x.body = y.body := by
  constructor
  · intro he
    obtain ⟨h1, h2, _⟩ := fileSecs_back hx
    obtain ⟨h3, h4, _⟩ := fileSecs_back hy
    have e1 := fileSecs_enc h1 h2 [] hl
    have e2 := fileSecs_enc h3 h4 [] (by rw [← he]; exact hl)
    rw [← he] at e2
    have := (FileSecs_unique (by rw [List.append_nil]; omega) e1 e2).1
    have h1 := congrArg Sections.header this
    have h2 := congrArg Sections.body this
    exact ⟨h1, h2⟩
  · rintro ⟨h1, h2⟩; rw [h1, h2]

/-! ## An instance -/

/-- A file with a content whose sizes and checksums are all zero. -/
def sloppyFile : Bytes :=
  word 0 ++ (word 0 ++ (encHeader richHeader ++ (word 0 ++ (word 0 ++ encBody richBody))))

theorem sloppy_secs : FileSecs false ⟨0, 0, richHeader, 0, 0, richBody⟩ sloppyFile [] := by
  refine ⟨_, _, headerSec_enc richHeader_ok, bodySec_enc richBody_ok, ?_, ?_, ?_, ?_⟩
  · rw [List.append_nil]; rfl
  · exact ⟨by decide, Nat.zero_le _⟩
  · exact ⟨by decide, Nat.zero_le _⟩
  · intro h; cases h

/-- It is read without checking, not with checking; written back it is read with checking. -/
theorem sloppy_rewritten : ∃ r r',
    parseWith .never .never Env.default64 sloppyFile = .ok r ∧
    (∀ q, parseWith .always .never Env.default64 sloppyFile ≠ .ok q) ∧
    parseWith .always .never Env.default64 (encFile richHeader richBody) = .ok r' ∧
    SameContent r r' ∧ r ≠ r' := by
  have hlen : sloppyFile.length < 2 ^ 31 := by decide +kernel
  have hr : parseWith .never .never Env.default64 sloppyFile =
      .ok (Sections.replay ⟨0, 0, richHeader, 0, 0, richBody⟩ none) := by
    rw [parseWith_ok_iff _ _ _ _ (Room.of_lt hlen)]
    exact ⟨_, [], none, sloppy_secs, rfl, rfl⟩
  refine ⟨_, (fileSections richHeader richBody).replay none, hr, ?_, ?_, rfl, ?_⟩
  · intro q hq
    obtain ⟨x, rest, net, hs, _⟩ := (parseWith_ok_iff _ _ _ _ (Room.of_lt hlen) _).1 hq
    obtain ⟨rfl, rfl⟩ := FileSecs_unique (by omega) hs sloppy_secs
    obtain ⟨bh, bb, _, _, _, _, _, h6⟩ := hs
    have : Crc.crc [] = 0 := (h6 rfl).1
    exact absurd this (by decide +kernel)
  · have := file_round_trip .always Env.default64 richHeader richBody richHeader_ok richBody_ok []
      (by decide +kernel) (Room.of_lt (by decide +kernel)).1
    rwa [List.append_nil] at this
  · intro h
    have := congrArg Replay.headerCrc h
    exact absurd this (by decide +kernel)

end Boxcars.Props
