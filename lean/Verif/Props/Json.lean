import Verif.Proofs.JsonText
import Verif.Props.Schema
import Verif.Props.Serde
import Verif.Props.HeaderSer
import Verif.Props.NoPanic
import Verif.Props.NetSample
import Verif.Props.Frames
/-!
# C72: JSON
-/
namespace Boxcars.Props
open Boxcars Spec Json

variable {fmt : F32 → Str}

/-- C72. What is written, in one line or with line breaks, is a JSON text of the serialized value. -/
theorem json_text (hf : Spec.Json.FloatText fmt) (v : SVal) :
    Spec.Json.Text (Spec.Json.jval fmt v) (compact fmt v) ∧
      Spec.Json.Text (Spec.Json.jval fmt v) (pretty fmt 0 v) :=
  ⟨compact_text hf v, pretty_text hf v⟩

/-- C72. A JSON text stands for one value only. -/
theorem json_unambiguous {x y : Spec.Json.JVal} {t : Str} (h : Spec.Json.Text x t)
    (h' : Spec.Json.Text y t) : x = y := text_unique h h'

/-- C72. Two replays are written as the same text exactly if they are serialized alike, apart from
floats that are not finite. -/
theorem json_same_iff (hf : Spec.Json.FloatText fmt) (r s : Replay) :
    pretty fmt 0 (serReplay r) = pretty fmt 0 (serReplay s) ↔
      toJson (serReplay r) = toJson (serReplay s) := by
  constructor
  · intro e
    have h := json_unambiguous (json_text hf (serReplay r)).2 (e ▸ (json_text hf (serReplay s)).2)
    exact has_strip ((replay_schema _).1 ⟨r, rfl⟩) okReplay _ ((replay_schema _).1 ⟨s, rfl⟩)
      (strip_of_jval hf h)
  · intro e
    rw [← pretty_toJson, e, pretty_toJson]

/-- C72, for replays with finite floats: the text tells everything but the kinds of the texts in
header values. -/
theorem json_same_partial (hf : Spec.Json.FloatText fmt) (r s : Replay)
    (hr : ∀ x, FloatIn x (serReplay r) → IsFinite x) (hs : ∀ x, FloatIn x (serReplay s) → IsFinite x) :
    pretty fmt 0 (serReplay r) = pretty fmt 0 (serReplay s) ↔ plainReplay r = plainReplay s := by
  rw [json_same_iff hf, replay_json r s hr hs]

/-- C72, for frames on their own, as `tests/frame_roundtrip.rs` writes them: with finite floats the
text tells everything. -/
theorem json_frames (hf : Spec.Json.FloatText fmt) (fs gs : List Frame)
    (h : ∀ x, FloatIn x ((cList cFrame).ser fs) → IsFinite x)
    (h' : ∀ x, FloatIn x ((cList cFrame).ser gs) → IsFinite x) :
    compact fmt ((cList cFrame).ser fs) = compact fmt ((cList cFrame).ser gs) ↔ fs = gs := by
  refine ⟨fun e => ?_, fun e => by rw [e]⟩
  have k := json_unambiguous (json_text hf ((cList cFrame).ser fs)).1
    (e ▸ (json_text hf ((cList cFrame).ser gs)).1)
  have k := has_strip ((frames_schema _).1 ⟨fs, rfl⟩) (by decide +kernel) _
    ((frames_schema _).1 ⟨gs, rfl⟩) (strip_of_jval hf k)
  rw [(json_safe_iff _).2 h, (json_safe_iff _).2 h'] at k
  have k := congrArg (cList cFrame).de k
  rw [frames_round_trip, frames_round_trip] at k
  exact Option.some.inj k

/-- C72. The text of a replay is an object with these members. -/
theorem json_members (hf : Spec.Json.FloatText fmt) (r : Replay) : ∃ kvs,
    Spec.Json.Text (.obj kvs) (pretty fmt 0 (serReplay r)) ∧ kvs.map Prod.fst =
      ["header_size", "header_crc", "major_version", "minor_version", "net_version", "game_type",
        "properties", "content_size", "content_crc", "network_frames", "levels", "keyframes",
        "debug_info", "tick_marks", "packages", "objects", "names", "class_indices",
        "net_cache"].map String.toList := by
  have h := (json_text hf (serReplay r)).2
  unfold serReplay at h ⊢
  rw [Spec.Json.jval] at h
  exact ⟨_, h, by simp only [Spec.Json.jfields, List.map_cons, List.map_nil]⟩

/-- C72. The program `examples/json.rs`: it prints the replay and ends well, or prints nothing and
ends with the error of the parser. -/
theorem json_program (fmt : F32 → Str) {env : Env} {data : List Byte} (hs : Small env data) :
    (∃ r, parseWith .always .always env data = .ok r ∧
      jsonMain fmt env data = (pretty fmt 0 (serReplay r), .success)) ∨
    ∃ e, parseWith .always .always env data = .err e ∧ jsonMain fmt env data = ([], .parse e) := by
  have he : ParserBuilder.new.alwaysCheckCrc.mustParseNetworkData.parse env data =
    parseWith .always .always env data := rfl
  unfold jsonMain
  rw [he]
  cases h : parseWith .always .always env data with
  | ok r => exact .inl ⟨r, rfl, rfl⟩
  | err e => exact .inr ⟨e, rfl, rfl⟩
  | fault f => exact absurd h (no_panic .always .always env data hs f)

/-- C72. It prints a JSON text exactly if the file is accepted. -/
theorem json_program_text (hf : Spec.Json.FloatText fmt) {env : Env} {data : List Byte}
    (hs : Small env data) :
    (∃ x, Spec.Json.Text x (jsonMain fmt env data).1) ↔
      ∃ r, parseWith .always .always env data = .ok r := by
  constructor
  · rintro ⟨x, hx⟩
    rcases json_program fmt hs with ⟨r, h, _⟩ | ⟨e, _, h⟩
    · exact ⟨r, h⟩
    · rw [h] at hx
      obtain ⟨w, u, w', _, hu, _, e⟩ := hx
      obtain ⟨c, v, rfl, _⟩ := value_head hu
      simp at e
  · rintro ⟨r, h⟩
    rcases json_program fmt hs with ⟨r', _, h'⟩ | ⟨e, h', _⟩
    · rw [h']; exact ⟨_, (json_text hf _).2⟩
    · rw [h] at h'; cases h'

/-! ## Floats that are not finite -/

/-- A file with two properties of the same name, both NaN. -/
def nanFile : List Byte :=
  [0x65, 0x00, 0x00, 0x00, 0xa5, 0x3e, 0x60, 0x90, 0x64, 0x03, 0x00, 0x00, 0x14, 0x00, 0x00, 0x00,
   0x0a, 0x00, 0x00, 0x00, 0x02, 0x00, 0x00, 0x00, 0x47, 0x00, 0x03, 0x00, 0x00, 0x00, 0x49, 0x64,
   0x00, 0x0e, 0x00, 0x00, 0x00, 0x46, 0x6c, 0x6f, 0x61, 0x74, 0x50, 0x72, 0x6f, 0x70, 0x65, 0x72,
   0x74, 0x79, 0x00, 0x04, 0x00, 0x00, 0x00, 0x00, 0x00, 0x00, 0x00, 0x00, 0x00, 0xc0, 0x7f, 0x03,
   0x00, 0x00, 0x00, 0x49, 0x64, 0x00, 0x0e, 0x00, 0x00, 0x00, 0x46, 0x6c, 0x6f, 0x61, 0x74, 0x50,
   0x72, 0x6f, 0x70, 0x65, 0x72, 0x74, 0x79, 0x00, 0x04, 0x00, 0x00, 0x00, 0x00, 0x00, 0x00, 0x00,
   0x00, 0x00, 0xc0, 0x7f, 0x05, 0x00, 0x00, 0x00, 0x4e, 0x6f, 0x6e, 0x65, 0x00] ++ sample.drop 70

/-- Another with the same checksum, different in the bits of the NaNs. -/
def nanFile' : List Byte :=
  ((((nanFile.set 59 0x7a).set 60 0xa7).set 61 0xcb).set 96 0x67).set 97 0x02

/-- What `nanFile` holds, up to the floats. -/
def nanReplay (a b : F32) : Replay :=
  ⟨101, 0x90603ea5, 868, 20, some 10, ['G'], [(['I', 'd'], .float a), (['I', 'd'], .float b)], 40,
    0x13899af5, some ⟨[]⟩, [], [], [], [], [], [], [], [], []⟩

/-- Equality but for the properties. -/
def sameRest (r s : Replay) : Bool :=
  r.headerSize == s.headerSize && r.headerCrc == s.headerCrc && r.majorVersion == s.majorVersion &&
  r.minorVersion == s.minorVersion && r.netVersion == s.netVersion && r.gameType == s.gameType &&
  r.contentSize == s.contentSize && r.contentCrc == s.contentCrc &&
  r.networkFrames == s.networkFrames && r.levels == s.levels && r.keyframes == s.keyframes &&
  r.debugInfo == s.debugInfo && r.tickMarks == s.tickMarks && r.packages == s.packages &&
  r.objects == s.objects && r.names == s.names && r.classIndices == s.classIndices &&
  r.netCache == s.netCache

/-- The outcome is `nanReplay`. -/
def isNan (a b : F32) : Res ParseError Replay → Bool
  | .ok r => sameRest r (nanReplay a b) && (match r.properties with
    | [(k, .float x), (k', .float y)] =>
      k == ['I', 'd'] && k' == ['I', 'd'] && x == a && y == b
    | _ => false)
  | _ => false

theorem eq_of_isNan {a b : F32} {o : Res ParseError Replay} (h : isNan a b o = true) :
    o = .ok (nanReplay a b) := by
  unfold isNan at h
  split at h
  · rename_i r
    obtain ⟨h1, h2, h3, h4, h5, h6, p, h7, h8, h9, h10, h11, h12, h13, h14, h15, h16, h17, h18⟩ := r
    rw [Bool.and_eq_true] at h
    obtain ⟨h, h'⟩ := h
    split at h'
    · rename_i hp
      dsimp only at hp
      subst hp
      simp only [sameRest, nanReplay, Bool.and_eq_true, beq_iff_eq] at h h' ⊢
      simp only [h, h']
    · cases h'
  · cases h

set_option maxRecDepth 100000 in
theorem nanFile_check : isNan 0x7fc00000 0x7fc00000 (parseWith .always .always Env.default64 nanFile) = true := by
  decide +kernel

set_option maxRecDepth 100000 in
theorem nanFile'_check : isNan 0x7fcba77a 0x7fc00267
    (parseWith .always .always Env.default64 nanFile') = true := by
  decide +kernel

theorem nan_same : toJson (serReplay (nanReplay 0x7fc00000 0x7fc00000)) =
    toJson (serReplay (nanReplay 0x7fcba77a 0x7fc00267)) := by
  simp only [nanReplay, serReplay, serProps, stringKeys, serProp, toJson, toJsonFields]
  rw [if_pos (by decide), if_pos (by decide), if_pos (by decide)]

/-- C72. The text does not tell replays apart if floats are not finite: two files, accepted with
their checksums verified, of which the program prints the same although their floats differ. -/
theorem json_not_injective : ∃ data data' r r', Small Env.default64 data ∧ Small Env.default64 data' ∧
    parseWith .always .always Env.default64 data = .ok r ∧
    parseWith .always .always Env.default64 data' = .ok r' ∧ plainReplay r ≠ plainReplay r' ∧
    ∀ fmt, jsonMain fmt Env.default64 data = jsonMain fmt Env.default64 data' := by
  have h := eq_of_isNan nanFile_check
  have h' := eq_of_isNan nanFile'_check
  have hs : Small Env.default64 nanFile := small64 rfl (by decide +kernel)
  have hs' : Small Env.default64 nanFile' := small64 rfl (by decide +kernel)
  refine ⟨_, _, _, _, hs, hs', h, h', ?_, fun fmt => ?_⟩
  · intro e
    have e := congrArg Replay.properties e
    simp [plainReplay, nanReplay, plainProps, plainProp] at e
  · rcases json_program fmt hs with ⟨r, k, e⟩ | ⟨_, k, _⟩
    · rcases json_program fmt hs' with ⟨r', k', e'⟩ | ⟨_, k', _⟩
      · rw [h] at k
        rw [h'] at k'
        cases k
        cases k'
        rw [e, e', ← pretty_toJson, nan_same, pretty_toJson]
      · rw [h'] at k'; cases k'
    · rw [h] at k; cases k

/-- C72. Names within an object need not be different: a repeated property is written twice. -/
theorem json_repeated (hf : Spec.Json.FloatText fmt) : ∃ data ps rest, Small Env.default64 data ∧
    Spec.Json.Text (.obj rest) (jsonMain fmt Env.default64 data).1 ∧
    (("properties".toList, .obj ps) ∈ rest) ∧ ¬(ps.map Prod.fst).Nodup := by
  have h := eq_of_isNan nanFile_check
  have hs : Small Env.default64 nanFile := small64 rfl (by decide +kernel)
  rcases json_program fmt hs with ⟨r, k, e⟩ | ⟨_, k, _⟩
  · rw [h] at k
    cases k
    have ht := (json_text hf (serReplay (nanReplay 0x7fc00000 0x7fc00000))).2
    unfold serReplay at ht e
    rw [Spec.Json.jval] at ht
    refine ⟨nanFile, Spec.Json.jfields fmt (stringKeys (serProps (nanReplay 0x7fc00000 0x7fc00000).properties)),
      _, hs, (by rw [e]; exact ht), ?_, ?_⟩
    · simp only [Spec.Json.jfields, Spec.Json.jval]
      iterate 6 apply List.Mem.tail
      exact .head _
    · simp [nanReplay, serProps, stringKeys, Spec.Json.jfields]
  · rw [h] at k; cases k

/-! ## In use -/

/-- A way of writing floats that is as assumed. -/
def bitsText (x : F32) : Str := displayNat x.toNat ++ ['.', '0']

theorem bitsText_ok : Spec.Json.FloatText bitsText where
  number x _ := ⟨[], displayNat x.toNat, ['.', '0'], [], .inl rfl, displayNat_int _,
    .inr ⟨['0'], ⟨by decide, by intro c hc; rw [List.mem_singleton] at hc; subst hc; exact ⟨by decide, by decide⟩⟩, rfl⟩,
    .inl rfl, by simp [bitsText]⟩
  mark x _ := ⟨'.', by simp [bitsText], .inl rfl⟩
  inj x y _ _ h := BitVec.eq_of_toNat_eq (displayNat_inj (List.append_cancel_right h))

/-- Escapes, numbers, nesting. -/
example : String.ofList (compact bitsText (.map [("a\"", .seq [.int (-12), .null, .f32 0, .f32 0x7fc00000]),
    ("b", .variant "V" (.str ['\n', Char.ofNat 1, 'é'])), ("c", .seq []), ("d", .unitVariant "U")])) =
    "{\"a\\\"\":[-12,null,0.0,null],\"b\":{\"V\":\"\\n\\u0001é\"},\"c\":[],\"d\":\"U\"}" := by
  decide +kernel

example : String.ofList (pretty bitsText 0 (.map [("a", .seq [.int 1, .bool true]), ("c", .seq []),
    ("b", .variant "V" (.map []))])) =
    "{\n  \"a\": [\n    1,\n    true\n  ],\n  \"c\": [],\n  \"b\": {\n    \"V\": {}\n  }\n}" := by
  decide +kernel

/-- Frames with finite floats: different frames have different texts. -/
example : compact bitsText ((cList cFrame).ser (demoFrames.take 1)) ≠
    compact bitsText ((cList cFrame).ser (demoFrames.take 2)) := fun h =>
  absurd ((json_frames bitsText_ok _ _ ((frames_json _).1 (by decide +kernel))
    ((frames_json _).1 (by decide +kernel))).1 h) (by decide +kernel)

/-- The program on the sample. -/
example : ∃ x, Spec.Json.Text x (jsonMain bitsText Env.default64 sample).1 :=
  (json_program_text bitsText_ok (small64 rfl (by decide))).2 sample_ok

end Boxcars.Props
