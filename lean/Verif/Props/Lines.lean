import Verif.Proofs.Lines
import Verif.Props.Told
import Verif.Props.Debug
/-!
# C96: what a file can put into its error message
-/
namespace Boxcars.Props
open Boxcars Spec Debug

variable {check : CrcCheck} {np : NetworkParse} {env : Env} {data : List Byte} {s : Std}

/-- C96. If the names in it have no line breaks, a message has at most 21 lines.  Its characters are
visible ASCII characters, those of the names, and characters that the standard library does not
escape. -/
theorem message_lines_partial (hstd : StdText s) (P : Char → Prop)
    (ascii : ∀ c : Char, 32 ≤ c.toNat → c.toNat < 127 → P c)
    (plain : ∀ c, s.plain c = true → c ≠ '\n' → P c) (hs : Small env data) {e : ParseError}
    (h : parseWith check np env data = .err e)
    (names : ∀ n ∈ rawNames e, ∀ c ∈ n, c ≠ '\n' ∧ P c) :
    Spec.Lines P 20 (Display.parseError (fmt s) e) :=
  Lines.parseError ⟨hstd, ascii, plain⟩ (told_known check np hs h) names

/-- C96. The names are those of the file: an unknown kind of a property of the header (where, is said
by `unknown_kind_iff`), or names of objects. -/
theorem raw_names (hs : Small env data) {e : ParseError} (h : parseWith check np env data = .err e)
    {n : Str} (hn : n ∈ rawNames e) :
    (∃ part off, e = .parseError part off (.unexpectedProperty n)) ∨
    ∃ x rest, FileSecs (decide (check = .always)) x data rest ∧ n ∈ x.body.objects := by
  cases answer_shape check np hs h with
  | located hl =>
    cases hl with
    | size => cases hn
    | named _ hsim =>
      cases hsim with
      | kind => rw [List.mem_singleton.1 hn]; exact .inl ⟨_, _, rfl⟩
      | _ => cases hn
  | corrupt => cases hn
  | mismatch => cases hn
  | @network x =>
    cases x with
    | frameError fe ctx =>
      obtain ⟨x, rest, c, n', ess, known, j, es, us, h1, _, _, h4⟩ :=
        replay_failure_context hs.1.1 h
      exact .inr ⟨x, rest, h1, h4.objects ▸ hn⟩
    | _ => cases hn

/-- A header with one property, of the kind `k`. -/
def kindFile (k : Str) : List Byte :=
  word 0 ++ (word 0 ++ (word 0 ++ (word 0 ++ (word 0 ++ (word 0 ++
    ((word (BitVec.ofNat 32 ((utf8 k).length + 1)) ++ (utf8 k ++ [0])) ++
      (List.replicate 8 0 ++ [])))))))

theorem kindFile_length (k : Str) : (kindFile k).length = (utf8 k).length + 37 := by
  unfold kindFile
  simp only [List.length_append, word_length, List.length_replicate, List.length_cons,
    List.length_nil]
  omega

theorem kindFile_small {k : Str} (h : (utf8 k).length ≤ 1000) :
    Small Env.default64 (kindFile k) := by
  have := kindFile_length k
  unfold Small Room
  rw [this]
  refine ⟨⟨?_, ?_⟩, fun h => by cases h⟩
  all_goals simp only [Env.default64, Env.isizeMax]; omega

/-- C96 fails: any text that is not the name of a kind is the end of the message for some file. -/
theorem message_forged (f : Display.Fmt) (np : NetworkParse) {k : Str} (hk : k ∉ knownKinds)
    (hl : (utf8 k).length + 1 < 2 ^ 31) (hs : Small env (kindFile k)) :
    ∃ off e, parseWith .never np env (kindFile k) = .err e ∧ Display.parseError f e =
      Display.t "Could not decode replay header properties at offset (" ++ Display.i32 off ++
        Display.t "): Did not expect a property of: " ++ k := by
  refine ⟨BitVec.ofNat 32 ((kindFile k).length - [].length (α := Byte)), .parseError
    "header properties" (BitVec.ofNat 32 ((kindFile k).length - [].length (α := Byte)))
    (.unexpectedProperty k), (file_error_iff _ _ _ _ hs _).2 (.header (d' := []) ?_), ?_⟩
  · refine .content ⟨by decide, Nat.zero_le _⟩ (.inl rfl) ?_
    refine .properties (net := none) (b := []) (game := []) ?_ (.inl ⟨rfl, rfl⟩) (.mk ?_)
    · unfold NetVersionField
      rw [if_neg (by decide)]
      exact ⟨rfl, rfl⟩
    · exact .value (key := []) (by decide) (.inl ⟨rfl, rfl⟩)
        (.inr ⟨0, hl, rfl⟩) (by simp) (.unknown hk)
  · unfold Display.parseError Display.parseError
    have h1 : Display.t "Could not decode replay header properties at offset (" =
        Display.t "Could not decode replay " ++ Display.t "header properties" ++
          Display.t " at offset (" := by decide +kernel
    have h2 : Display.t "): Did not expect a property of: " =
        Display.t "): " ++ Display.t "Did not expect a property of: " := by decide +kernel
    rw [h1, h2]
    simp only [List.append_assoc]

/-- A second line, as if it came from the program. -/
def forgedText : Str := "x\nparsed replay.replay".toList

/-- C96 fails, an instance: the message ends with a line that the file chose. -/
theorem message_forged_example (f : Display.Fmt) (np : NetworkParse) :
    ∃ e first, parseWith .never np Env.default64 (kindFile forgedText) = .err e ∧
      Display.parseError f e = first ++ Display.t "\nparsed replay.replay" := by
  obtain ⟨off, e, h1, h2⟩ := message_forged (env := .default64) f np (k := forgedText)
    (by decide +kernel) (by decide +kernel) (kindFile_small (by decide +kernel))
  rw [show forgedText = ['x'] ++ Display.t "\nparsed replay.replay" by decide +kernel,
    ← List.append_assoc] at h2
  exact ⟨e, _, h1, h2⟩

/-- C96 fails: there is no bound on the number of lines. -/
theorem message_lines_unbounded (f : Display.Fmt) (np : NetworkParse) (n : Nat) (hn : n + 2 < 2 ^ 31)
    (hs : Small env (kindFile (List.replicate (n + 1) '\n'))) :
    ∃ e, parseWith .never np env (kindFile (List.replicate (n + 1) '\n')) = .err e ∧
      n < (Display.parseError f e).count '\n' := by
  have hu : ∀ n, (utf8 (List.replicate n '\n')).length = n := by
    intro n
    induction n with
    | zero => rfl
    | succ n ih =>
      rw [List.replicate_succ, utf8_cons, ih, show Char.utf8Size '\n' = 1 by decide]
      omega
  obtain ⟨off, e, h1, h2⟩ := message_forged (env := env) f np (k := List.replicate (n + 1) '\n')
    (by
      intro h
      have : ∀ k ∈ knownKinds, k.head? ≠ some '\n' := by decide +kernel
      exact this _ h (by simp [List.replicate_succ]))
    (by rw [hu]; exact hn) hs
  refine ⟨e, h1, ?_⟩
  rw [h2, List.count_append, List.count_replicate_self]
  omega

/-- An instance of `message_lines_partial`: with the kind on one line the message is one line. -/
theorem one_line_example (f : Display.Fmt) (np : NetworkParse) :
    ∃ e, parseWith .never np Env.default64 (kindFile "JntProperty".toList) = .err e ∧
      (Display.parseError f e).count '\n' = 0 := by
  obtain ⟨off, e, h1, h2⟩ := message_forged (env := .default64) f np (k := "JntProperty".toList)
    (by decide +kernel) (by decide +kernel) (kindFile_small (by decide +kernel))
  refine ⟨e, h1, ?_⟩
  rw [h2]
  refine List.count_eq_zero.2 fun h => ?_
  simp only [List.mem_append] at h
  rcases h with ((h | h) | h) | h
  · exact absurd h (by decide +kernel)
  · exact Lines.ascii_ne (atom_ascii (displayInt_atom _ _ h)).1 rfl
  · exact absurd h (by decide +kernel)
  · exact absurd h (by decide +kernel)

end Boxcars.Props
