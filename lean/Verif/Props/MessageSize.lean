import Verif.Proofs.MessageSize
import Verif.Props.FileFail
import Verif.Props.Message
import Verif.Props.Frames
/-!
# C85: the message of an error is at most proportional to the file
-/
namespace Boxcars.Props
open Boxcars Spec Json MessageSize

variable {check : CrcCheck} {np : NetworkParse} {env : Env} {data : List Byte} {f : Display.Fmt}
  {K : Nat}

/-- The names of the objects outside the network section. -/
theorem objects_size {c : Bool} {x : Sections} {rest : List Byte} (hx : FileSecs c x data rest) :
    sizes textSize x.body.objects + 3 * x.body.networkData.length ≤ 3 * data.length := by
  obtain ⟨bh, bb, _, hb, hd, _⟩ := hx
  obtain ⟨c1, c2, c3, c4, c5, c6, c7, c8, c9, _, _, _, _, _, _, h6, _, _, _, hbb⟩ := hb
  have := listField_size (f := textSize) (fun _ _ => textField_size) h6
  have hl := congrArg List.length hd
  rw [hbb] at hl
  simp only [List.length_append, word_length] at hl
  omega

theorem network_text (f : Display.Fmt) (e : FrameError) (ctx : FrameContext) :
    ∃ dot, len dot ≤ 2 ∧ Display.networkError f (.frameError e ctx) =
      Display.t "Error decoding frame: " ++ Display.frameError f e ++ dot
        ++ Display.contextualize f e ctx ++ Display.line [] ++ Display.context f ctx := by
  have : len (Display.t ". ") ≤ 2 := by decide +kernel
  cases e <;> first | exact ⟨_, this, rfl⟩ | exact ⟨[], Nat.zero_le _, rfl⟩

/-- C85, the messages about frames. -/
theorem frame_message (hf : BriefText f K) (hs : data.length ≤ env.isizeMax) {e : FrameError}
    {ctx : FrameContext}
    (h : parseWith check np env data = .err (.networkError (.frameError e ctx))) :
    (utf8 (Display.parseError f (.networkError (.frameError e ctx)))).length ≤
      (27 + 8 * K) * (data.length + 41) := by
  obtain ⟨x, rest, hx, hp⟩ := network_error_source hs h
  obtain ⟨hk, h3, h4⟩ := fileSecs_sizes hx
  have hS := objects_size hx
  have hr := reason_len hf (failure_reason f (by omega) h4 hp)
  obtain ⟨c, n, ess, known, j, es, us, txt, g1, g2, g3, g4⟩ := activity_shown f (by omega) h4 hp
  obtain ⟨s1, s2, s3⟩ := framesAt_size g1.frames
  rw [BSpec.bytes_length] at s1 s2 s3
  have hfe := frameFail_len hf g2
  have hsz := frameFail_size g2
  have ha := activityText_len (B := 8 * x.body.networkData.length) hf g3 (by omega) (by omega) s3
  have hpos := position_len hf (fs := ctx.frames) (by omega)
  have hm := Nat.mul_le_mul_left (8 * K) hk
  obtain ⟨dot, h2, h5⟩ := network_text f e ctx
  show len (Display.networkError f (.frameError e ctx)) ≤ _
  rw [h5, g4]
  simp only [Display.line]
  lits
  have e1 : K * (8 * x.body.networkData.length) = 8 * K * x.body.networkData.length := by
    rw [← Nat.mul_assoc, Nat.mul_comm K 8]
  rw [e1] at ha
  rw [Nat.add_mul, Nat.mul_add, Nat.mul_add]
  omega

/-- C85. The message of an error has at most proportionally as many bytes as the file, if the
text that the standard library makes of values is proportional to them. -/
theorem message_linear (hf : BriefText f K) (hs : Small env data) {e : ParseError}
    (h : parseWith check np env data = .err e) :
    (utf8 (Display.parseError f e)).length ≤ (27 + 8 * K) * (data.length + 41) := by
  have hm : 27 * data.length + 27 * 41 ≤ (27 + 8 * K) * (data.length + 41) := by
    rw [Nat.add_mul, Nat.mul_add]
    omega
  by_cases hn : ∃ x, e = .networkError x
  · obtain ⟨x, rfl⟩ := hn
    cases x with
    | streamTooLargeIndex s o =>
      have := i32_len s
      have := i32_len o
      refine Nat.le_trans ?_ hm
      show len (Display.networkError f _) ≤ _
      unfold Display.networkError
      lits
      omega
    | tooManyFrames n =>
      have := i32_len n
      refine Nat.le_trans ?_ hm
      show len (Display.networkError f _) ≤ _
      unfold Display.networkError
      lits
      omega
    | frameError e ctx => exact frame_message hf hs.1.1 h
  · have hW : env.usizeBits ≤ 64 := by rcases env.usizeBits_eq with h | h <;> omega
    have := front_len (f := f) hW ((file_error_iff check np env data hs e).1 h)
      (fun x hx => hn ⟨x, hx⟩)
    refine Nat.le_trans this ?_
    omega

/-! ## Nothing less will do -/

/-- A key, an unknown kind of `n + 1` letters, and the eight bytes after it. -/
def longKind (n : Nat) : List Byte :=
  word 0 ++ (word 0 ++ (word 0 ++ (word 0 ++ (word 0 ++ (word 0 ++
    ((word (BitVec.ofNat 32 (n + 2)) ++ (utf8 (List.replicate (n + 1) 'x') ++ [0])) ++
      (List.replicate 8 0 ++ [])))))))

theorem utf8_xs (n : Nat) : (utf8 (List.replicate n 'x')).length = n := by
  induction n with
  | zero => rfl
  | succ n ih =>
    rw [List.replicate_succ, utf8_cons, ih, show Char.utf8Size 'x' = 1 by decide]
    omega

theorem longKind_length (n : Nat) : (longKind n).length = n + 38 := by
  unfold longKind
  simp only [List.length_append, word_length, utf8_xs, List.length_replicate, List.length_cons,
    List.length_nil]
  omega

theorem xs_unknown (n : Nat) : List.replicate (n + 1) 'x' ∉ knownKinds := by
  intro h
  have : ∀ k ∈ knownKinds, k.head? ≠ some 'x' := by decide +kernel
  exact this _ h (by simp [List.replicate_succ])

theorem longKind_fails (np : NetworkParse) {n : Nat} (hn : n + 2 < 2 ^ 31)
    (hs : Small env (longKind n)) :
    ∃ off, parseWith .never np env (longKind n) =
      .err (.parseError "header properties" off
        (.unexpectedProperty (List.replicate (n + 1) 'x'))) := by
  refine ⟨BitVec.ofNat 32 ((longKind n).length - [].length (α := Byte)),
    (file_error_iff _ _ _ _ hs _).2 (.header (d' := []) ?_)⟩
  refine .content ⟨by decide, Nat.zero_le _⟩ (.inl rfl) ?_
  refine .properties (net := none) (b := []) (game := []) ?_ (.inl ⟨rfl, rfl⟩) (.mk ?_)
  · unfold NetVersionField
    rw [if_neg (by decide)]
    exact ⟨rfl, rfl⟩
  · refine .value (key := []) (by decide) (.inl ⟨rfl, rfl⟩)
      (.inr ⟨0, by rw [utf8_xs]; exact hn, by rw [utf8_xs]⟩) (by simp) (.unknown (xs_unknown n))

/-- C85. There is a file of any size from 38 bytes to 2 GiB with a message of more bytes than the
file has. -/
theorem message_long (f : Display.Fmt) (np : NetworkParse) (n : Nat) (hn : n + 2 < 2 ^ 31)
    (hs : Room env (n + 38) ∧ (env.usizeBits = 32 → n + 38 < 2 ^ 24)) :
    ∃ data e, data.length = n + 38 ∧ parseWith .never np env data = .err e ∧
      data.length < (utf8 (Display.parseError f e)).length := by
  obtain ⟨off, h⟩ := longKind_fails (env := env) np hn (by
    unfold Small; rw [longKind_length]; exact hs)
  refine ⟨_, _, longKind_length n, h, ?_⟩
  rw [longKind_length]
  show _ < len _
  have h1 : len (List.replicate (n + 1) 'x') = n + 1 := utf8_xs (n + 1)
  unfold Display.parseError Display.parseError
  lits
  rw [h1]
  omega

/-! ## An instance -/

theorem sampleFmt_brief : BriefText sampleFmt 10 where
  f32 x := word_len x
  tag _ := (by decide +kernel : (utf8 "TAG".toList).length ≤ 10)
  attr a := by
    have := attrSize_pos a
    have : (utf8 "VALUE".toList).length = 5 := by decide +kernel
    show (utf8 "VALUE".toList).length ≤ _
    omega
  location _ := (by decide +kernel : (utf8 "LOCATION".toList).length ≤ 10)
  rotation _ := (by decide +kernel : (utf8 "ROTATION".toList).length ≤ 10)

set_option maxRecDepth 100000 in
/-- A kind of four letters: 41 bytes, with a message of 91. -/
example : (longKind 3).length = 41 ∧
    (match parseWith .never .always Env.default64 (longKind 3) with
    | .err e => String.ofList (Display.parseError sampleFmt e)
    | _ => "") = "Could not decode replay header properties at offset (41): " ++
      "Did not expect a property of: xxxx" := by
  decide +kernel

set_option maxRecDepth 100000 in
/-- A stray update in a file of 324 bytes. -/
theorem demoStray_message : (match parseWith .always .always Env.default64 demoStray with
    | .err e => ((utf8 (Display.parseError sampleFmt e)).length, demoStray.length)
    | _ => (0, 0)) = (423, 324) := by
  decide +kernel

end Boxcars.Props
