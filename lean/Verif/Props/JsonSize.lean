import Verif.Proofs.JsonReplay
import Verif.Props.File
import Verif.Props.Header
import Verif.Props.Json
import Verif.Props.Size
/-!
# C84: the length of the JSON text
-/
namespace Boxcars.Props
open Boxcars Spec Json

variable {fmt : F32 → Str} {check : CrcCheck} {np : NetworkParse} {env : Env} {data : List Byte}
  {r : Replay}

mutual
theorem serProp_height : ∀ v : HeaderProp, height (serProp v) ≤ 1 + 2 * valDepth v
  | .array es => by
    have := serElems_height es
    rw [serProp, height, valDepth]
    omega
  | .struct n fs => by
    have := serProps_height fs
    have e : height (.str n) = 0 := rfl
    rw [serProp, height, heightFields, heightFields, heightFields, e, height, valDepth]
    omega
  | .byte k none => by rw [serProp]; simp [height, heightFields, cOption]
  | .byte k (some v) => by rw [serProp]; simp [height, heightFields, cOption, cStr]
  | .bool _ | .float _ | .int _ | .qword _ | .name _ | .str _ => by rw [serProp]; exact Nat.zero_le _
theorem serProps_height : ∀ ps : List (Str × HeaderProp),
    heightFields (stringKeys (serProps ps)) + 1 ≤ 2 * propsDepth ps
  | [] => by rw [serProps, stringKeys, heightFields, propsDepth]; omega
  | (k, v) :: ps => by
    have h1 := serProp_height v
    have h2 := serProps_height ps
    rw [serProps, stringKeys, heightFields, propsDepth]
    omega
theorem serElems_height : ∀ es : List (List (Str × HeaderProp)),
    heights (serElems es) ≤ 2 * elemsDepth es
  | [] => Nat.zero_le _
  | e :: es => by
    have h1 := serProps_height e
    have h2 := serElems_height es
    rw [serElems, heights, elemsDepth, height]
    omega
end

theorem heightFields_le {k : String} {x : SVal} {kvs : List (String × SVal)} {c : Nat}
    (hx : height x ≤ c) (h : heightFields kvs ≤ c) : heightFields ((k, x) :: kvs) ≤ c := by
  rw [heightFields]
  omega

theorem replay_height (r : Replay) : height (serReplay r) ≤ 12 + 2 * propsDepth r.properties := by
  have hp := serProps_height r.properties
  have hp' : height (.map (stringKeys (serProps r.properties))) ≤ 11 + 2 * propsDepth r.properties := by
    rw [height]; omega
  have hv : height ((cOption cI32).ser r.netVersion) = 0 := by cases r.netVersion <;> rfl
  have hn : height (match r.networkFrames with
      | none => .null
      | some n => serNetworkFrames n) ≤ 11 := by
    cases r.networkFrames with
    | none => exact Nat.zero_le _
    | some n =>
      have := seq_height frame_fits (by decide +kernel) (c := 9) (by decide +kernel) n.frames
      show height (.map [("frames", .seq (n.frames.map cFrame.ser))]) ≤ 11
      rw [height, heightFields, heightFields]
      omega
  have strs : ∀ xs : List Str, height ((cList cStr).ser xs) ≤ 1 :=
    fun xs => seq_height str_fits rfl (c := 0) (Nat.le_refl _) xs
  have l2 := seq_height keyFrame_fits (by decide +kernel) (c := 9) (by decide +kernel) r.keyframes
  have l3 := seq_height debugInfo_fits (by decide +kernel) (c := 9) (by decide +kernel) r.debugInfo
  have l4 := seq_height tickMark_fits (by decide +kernel) (c := 9) (by decide +kernel) r.tickMarks
  have l8 := seq_height classIndex_fits (by decide +kernel) (c := 9) (by decide +kernel) r.classIndices
  have l9 := seq_height classNetCache_fits (by decide +kernel) (c := 9) (by decide +kernel) r.netCache
  have up : ∀ {a : Nat}, a ≤ 11 → a ≤ 11 + 2 * propsDepth r.properties :=
    fun h => Nat.le_trans h (Nat.le_add_right _ _)
  unfold serReplay
  rw [height]
  suffices h : _ ≤ 11 + 2 * propsDepth r.properties by
    exact Nat.le_trans (Nat.add_le_add_left h 1) (by omega)
  refine heightFields_le (Nat.zero_le _) <| heightFields_le (Nat.zero_le _) <|
    heightFields_le (Nat.zero_le _) <| heightFields_le (Nat.zero_le _) <|
    heightFields_le (up (by rw [hv]; omega)) <| heightFields_le (Nat.zero_le _) <|
    heightFields_le hp' <| heightFields_le (Nat.zero_le _) <| heightFields_le (Nat.zero_le _) <|
    heightFields_le (up hn) <| heightFields_le (up (Nat.le_trans (strs r.levels) (by decide))) <|
    heightFields_le (up (Nat.le_trans l2 (by decide))) <|
    heightFields_le (up (Nat.le_trans l3 (by decide))) <|
    heightFields_le (up (Nat.le_trans l4 (by decide))) <|
    heightFields_le (up (Nat.le_trans (strs r.packages) (by decide))) <|
    heightFields_le (up (Nat.le_trans (strs r.objects) (by decide))) <|
    heightFields_le (up (Nat.le_trans (strs r.names) (by decide))) <|
    heightFields_le (up (Nat.le_trans l8 (by decide))) <|
    heightFields_le (up (Nat.le_trans l9 (by decide))) <|
    Nat.zero_le _

/-! ## Without line breaks -/

/-- C84. Written without line breaks, a replay takes at most 7680 bytes for each byte of its file, and
700. -/
theorem json_linear (hF : ∀ x, Spec.IsFinite x → (utf8 (fmt x)).length ≤ 16)
    (hs : data.length ≤ env.isizeMax)
    (h : parseWith check np env data = .ok r) :
    (utf8 (compact fmt (serReplay r))).length ≤ 7680 * data.length + 700 := by
  have h1 := replay_len hF r
  obtain ⟨k, h2, h3, h4⟩ := size_parts hs h
  have e : len (compact fmt (serReplay r)) = (utf8 (compact fmt (serReplay r))).length := rfl
  omega

/-- C84. Without the network data it takes at most 480 for each byte. -/
theorem json_linear_file (hF : ∀ x, Spec.IsFinite x → (utf8 (fmt x)).length ≤ 16)
    (hs : data.length ≤ env.isizeMax)
    (h : parseWith check .never env data = .ok r) :
    (utf8 (compact fmt (serReplay r))).length ≤ 480 * data.length + 700 := by
  have h1 := replay_len hF r
  obtain ⟨k, h2, h3, h4⟩ := size_parts hs h
  have e : len (compact fmt (serReplay r)) = (utf8 (compact fmt (serReplay r))).length := rfl
  have : framesSize r = 0 := by
    obtain ⟨x, rest, net, hx, hn, rfl⟩ := parseWith_ok_of hs h
    have hn : net = none := hn
    subst hn
    rfl
  omega

/-! ## With line breaks -/

/-- C84, in part. What `examples/json.rs` prints takes at most that many bytes for each level the
properties of the header are nested. -/
theorem json_printed_partial (hF : ∀ x, Spec.IsFinite x → (utf8 (fmt x)).length ≤ 16)
    (hs : data.length ≤ env.isizeMax)
    (h : parseWith .always .always env data = .ok r) :
    (utf8 (jsonMain fmt env data).1).length ≤
      (7680 * data.length + 700) * (27 + 4 * propsDepth r.properties) := by
  have e : jsonMain fmt env data = (pretty fmt 0 (serReplay r), .success) := by
    have he : ParserBuilder.new.alwaysCheckCrc.mustParseNetworkData.parse env data = .ok r := h
    unfold jsonMain
    rw [he]
  rw [e]
  have h1 := json_linear hF hs h
  have h2 := pretty_compact (fmt := fmt) (serReplay r)
  have h3 := replay_height r
  refine Nat.le_trans h2 ?_
  exact Nat.mul_le_mul h1 (by omega)

theorem prettyFields_mem {fmt : F32 → Str} {k : String} {x : SVal} (l : Nat) :
    ∀ {kvs : List (String × SVal)}, (k, x) ∈ kvs →
      len (pretty fmt l x) ≤ len (prettyFields fmt l kvs)
  | (k', y) :: kvs, h => by
    rw [prettyFields]
    simp only [len_append]
    cases h with
    | head => omega
    | tail _ h =>
      have := prettyFields_mem (fmt := fmt) l h
      omega

theorem len_brace (s : Str) : len ('{' :: s) = 1 + len s := by
  rw [len_cons, show len ['{'] = 1 by decide]

theorem pretty_mem {k : String} {x : SVal} (l : Nat) {kvs : List (String × SVal)}
    (h : (k, x) ∈ kvs) : len (pretty fmt (l + 1) x) ≤ len (pretty fmt l (.map kvs)) := by
  cases h with
  | head =>
    rw [pretty]
    simp only [len_append, List.cons_append, len_brace]
    omega
  | tail _ h =>
    have := prettyFields_mem (fmt := fmt) (l + 1) h
    rw [pretty]
    simp only [len_append, List.cons_append, len_brace]
    omega

/-- Each of the structs inside each other has five lines. -/
theorem nested_printed (k : Nat) : ∀ l : Nat,
    10 * k * (k + l) ≤ len (pretty fmt l (.map (stringKeys (serProps (nested k))))) := by
  induction k with
  | zero => intro l; rw [Nat.mul_zero, Nat.zero_mul]; exact Nat.zero_le _
  | succ k ih =>
    intro l
    have h := ih (l + 1 + 1)
    have h1 := newline_len l true
    have h2 := newline_len (l + 1) true
    have h3 := newline_len (l + 1 + 1) true
    have h4 := newline_len (l + 1 + 1) false
    rw [nested, serProps, serProps, serProp, stringKeys, stringKeys, pretty, pretty, prettyFields,
      prettyFields, prettyFields]
    simp only [len_append, List.cons_append, len_brace]
    have e : 10 * (k + 1) * (k + 1 + l) = 10 * k * (k + (l + 1 + 1)) + 10 * (1 + l) := by
      simp only [Nat.mul_add, Nat.add_mul]
      omega
    rw [if_pos rfl] at h1 h2 h3
    rw [if_neg (by decide)] at h4
    omega

/-- C84 is false of what `examples/json.rs` prints: for every `k` up to 46 million there is a file of
`46 k + 78` bytes for which it prints at least `10 k ^ 2`. -/
theorem json_printed_square (fmt : F32 → Str) (k : Nat) (hk : k ≤ 46000000) :
    ∃ data, Small Env.default64 data ∧ data.length = 46 * k + 78 ∧
      (∃ r, parseWith .always .always Env.default64 data = .ok r) ∧
      10 * k * k ≤ (utf8 (jsonMain fmt Env.default64 data).1).length := by
  have e := nestedFile_length k
  have hs : Small Env.default64 (encFile (nestedHeader k) sampleBody) :=
    small64 rfl (by rw [e]; omega)
  have hn : (nestedHeader k).numFrames = none := by
    refine (lookup_absent _).1 fun p hp => ?_
    cases k with
    | zero => cases hp
    | succ k =>
      have hp : p ∈ [(([] : Str), HeaderProp.struct [] (nested k))] := hp
      rw [List.mem_singleton] at hp
      subst hp
      intro h
      have := congrArg List.length h
      revert this
      show 0 = "NumFrames".toList.length → False
      decide +kernel
  have hnet : Network.parse Env.default64 (nestedHeader k) sampleBody = .ok ⟨[]⟩ := by
    have e1 : (Network.spawnTable Env.default64 sampleBody.objects : Res NetworkError _) = .ok _ := rfl
    have e2 : Network.cacheTable Env.default64 sampleBody.objects sampleBody.netCache = .ok _ := rfl
    unfold Network.parse
    rw [e1, e2, hn]
    rfl
  have h := file_round_trip_network .always .always Env.default64 (nestedHeader k) sampleBody
    (nestedHeader_ok k) sampleBody_ok [] (by rw [e]; omega)
    (Room.of_lt (by rw [List.append_nil, e]; omega)).1 ⟨[]⟩ hnet (by decide)
  rw [List.append_nil] at h
  refine ⟨_, hs, e, ⟨_, h⟩, ?_⟩
  rcases json_program fmt hs with ⟨r, h', e'⟩ | ⟨_, h', _⟩
  · rw [h] at h'
    cases h'
    rw [e']
    have h1 := nested_printed (fmt := fmt) k 1
    have h2 : 10 * k * k ≤ 10 * k * (k + 1) := Nat.mul_le_mul_left _ (Nat.le_succ k)
    refine Nat.le_trans (Nat.le_trans h2 h1) ?_
    unfold serReplay
    refine pretty_mem (k := "properties") 0 ?_
    iterate 6 apply List.Mem.tail
    exact .head _
  · rw [h] at h'; cases h'

/-- C84. So no bound of that kind with a factor of up to nine million holds for it. -/
theorem json_printed_not_linear (fmt : F32 → Str) (A : Nat) (hA : A ≤ 9000000) :
    ¬ ∀ data, Small Env.default64 data →
      (∃ r, parseWith .always .always Env.default64 data = .ok r) →
      (utf8 (jsonMain fmt Env.default64 data).1).length ≤ A * (data.length + 1) := by
  intro h
  obtain ⟨data, hs, hl, ho, hp⟩ := json_printed_square fmt (5 * (A + 1)) (by omega)
  have := h data hs ho
  rw [hl] at this
  have e1 : 10 * (5 * (A + 1)) * (5 * (A + 1)) = 250 * (A * A) + 500 * A + 250 := by
    simp only [Nat.mul_add, Nat.add_mul, Nat.mul_one, Nat.mul_assoc,
      Nat.mul_left_comm A]
    omega
  have e2 : A * (46 * (5 * (A + 1)) + 78 + 1) = 230 * (A * A) + 309 * A := by
    simp only [Nat.mul_add, Nat.mul_one, Nat.mul_left_comm A]
    omega
  omega

/-- A file of 46078 bytes for which it prints ten million. -/
example (fmt : F32 → Str) : ∃ data, data.length = 46078 ∧
    10000000 ≤ (utf8 (jsonMain fmt Env.default64 data).1).length := by
  obtain ⟨data, _, h1, _, h2⟩ := json_printed_square fmt 1000 (by decide)
  exact ⟨data, h1, h2⟩

/-! ## In use -/

/-- The sample, with floats as their bits. -/
example : ∃ r, parseWith .always .always Env.default64 sample = .ok r ∧
    (utf8 (compact bitsText (serReplay r))).length ≤ 7680 * sample.length + 700 := by
  obtain ⟨r, h⟩ := sample_ok
  refine ⟨r, h, json_linear (fun x _ => ?_) (small64 rfl (by decide)).len h⟩
  have h1 : len (Nat.toDigits 10 x.toNat) ≤ max 10 1 :=
    digits_len (by have := x.isLt; have : 2 ^ 32 < 10 ^ 10 := by decide
                   omega)
  have e : len (bitsText x) = len (Nat.toDigits 10 x.toNat) + len ['.', '0'] := len_append _ _
  have e' : len ['.', '0'] = 2 := by decide
  show len (bitsText x) ≤ 16
  omega

end Boxcars.Props
