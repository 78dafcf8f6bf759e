import Verif.Proofs.Plain
import Verif.Proofs.Section
import Verif.Props.Sample
/-!
# C06, C07, C08, C09, C10: checksum and network policies
-/
namespace Boxcars.Props
open Boxcars Spec

variable (np : NetworkParse) (env : Env) (data : List Byte)

/-! ## C06 -/

/-- C06. Success under `always_check_crc` implies that both stored checksums are the
checksums of the declared bytes. -/
theorem always_ok_crc (hl : data.length ≤ env.isizeMax) (r : Replay)
    (h : parseWith .always np env data = .ok r) :
    ∃ d1 bh d2, data = word r.headerSize ++ (word r.headerCrc ++ d1) ∧
      d1 = bh ++ (word r.contentSize ++ (word r.contentCrc ++ d2)) ∧
      Fits r.headerSize d1.length ∧ Fits r.contentSize d2.length ∧
      Spec.Crc.crc (d1.take r.headerSize.toNat) = r.headerCrc ∧
      Spec.Crc.crc (d2.take r.contentSize.toNat) = r.contentCrc := by
  obtain ⟨x, rest, net, ⟨bh, bb, _, _, hd, hf1, hf2, hc⟩, _, rfl⟩ :=
    parseWith_ok_of hl h
  obtain ⟨hc1, hc2⟩ := hc (by decide)
  exact ⟨_, bh, bb ++ rest, hd, rfl, hf1, hf2, hc1, hc2⟩

/-- C06. A header checksum mismatch is reported, whether or not the header parses. -/
theorem always_header_mismatch (hl : Room env data.length) (c a : U32)
    (h : SecMismatch c a data) : parseWith .always np env data = .err (.crcMismatch c a) := by
  obtain ⟨s', hs⟩ := section_always parseHeader "header size" "header crc" "header data" "header"
    env hl (CoreSt.init data) CoreInv.init parseHeader_spec c a h
  rw [parseWith_eq]
  unfold front
  simp only [bind, P.bind, hs]

/-- C06. A body checksum mismatch is reported, whether or not the body parses, once the
header section has been accepted. -/
theorem always_body_mismatch (hl : Room env data.length) (c a : U32) (hd : Header)
    (hs hc : BitVec 32) (bh d2 : Bytes) (h1 : HeaderSec hd bh)
    (h2 : data = word hs ++ (word hc ++ (bh ++ d2))) (h3 : Fits hs (bh ++ d2).length)
    (h4 : Spec.Crc.crc ((bh ++ d2).take hs.toNat) = hc) (h : SecMismatch c a d2) :
    parseWith .always np env data = .err (.crcMismatch c a) := by
  have hi1 : CoreInv env data.length ⟨d2, BitVec.ofNat 32 (data.length - d2.length)⟩ :=
    (CoreInv.init (data := data)).of_suffix hl (s := CoreSt.init data) (by
      show d2 <:+ data
      rw [h2, ← List.append_assoc, ← List.append_assoc]; exact List.suffix_append _ _)
  have hh := ((section_spec .always "header size" "header crc" "header data" "header"
    parseHeader_spec).okIff data.length env (CoreSt.init data) hl.1 CoreInv.init (Nat.le_refl _)
    (hs, hc, hd) ⟨d2, BitVec.ofNat 32 (data.length - d2.length)⟩).2
    ⟨⟨bh, h1, h2, h3, fun _ => h4⟩, hi1⟩
  obtain ⟨s', hs⟩ := section_always parseBody "content size" "content crc" "content data" "body"
    env hl _ hi1 parseBody_spec c a h
  rw [parseWith_eq]
  unfold front
  simp only [bind, P.bind, hh, hs]

/-- The hypotheses are satisfiable: the sample file is accepted; with one header byte
changed its header mismatches; with one body byte changed its body mismatches. -/
example : (∃ r, parseWith .always .always Env.default64 sample = .ok r) ∧
    parseWith .always .always Env.default64 (sample.set 9 4#8) =
      .err (.crcMismatch 0xd007b860 0x6b683279) ∧
    parseWith .always .always Env.default64 (sample.set 117 4#8) =
      .err (.crcMismatch 0x13899af5 0x008dec29) := by
  refine ⟨sample_ok, ?_, ?_⟩
  · apply always_header_mismatch _ _ _ (Room.of_lt (by decide))
    exact ⟨62, (sample.set 9 4#8).drop 8, by decide +kernel⟩
  · apply always_body_mismatch _ _ _ (Room.of_lt (by decide)) _ _ sampleHeader 62 0xd007b860 sampleHeaderBytes
      ((sample.set 117 4#8).drop 70) sample_headerSec (by decide +kernel) (by decide +kernel)
      (by decide +kernel)
    exact ⟨40, (sample.set 117 4#8).drop 78, by decide +kernel⟩

/-! ## C07 -/

/-- C07. `on_error_check_crc` and `never_check_crc` succeed on the same files with the
same replay. -/
theorem onError_ok_iff_never (hl : data.length ≤ env.isizeMax) (r : Replay) :
    parseWith .onError np env data = .ok r ↔ parseWith .never np env data = .ok r := by
  rw [parseWith_ok_iff_all _ _ _ _ hl, parseWith_ok_iff_all _ _ _ _ hl]; rfl

theorem sectionAt_iff {α : Type} {m : P α} {g : α → Bytes → Prop} {N : Nat} (h : PSpec N m (ofG g))
    (n1 n2 n3 n4 : String) {T : Nat} (hT : Room env T) (s : CoreSt) (hi : CoreInv env T s)
    (hN : s.data.length ≤ N) (x : α) (d' : Bytes) :
    (∃ size crc, section_ .never n1 n2 n3 n4 m env s =
      .ok (size, crc, x) ⟨d', BitVec.ofNat 32 (T - d'.length)⟩) ↔ SectionAt g x s.data d' := by
  constructor
  · rintro ⟨size, crc, h1⟩
    obtain ⟨⟨bs, h2, h3, h4, _⟩, _⟩ :=
      ((section_spec .never n1 n2 n3 n4 h).okIff T env s hT.1 hi hN _ _).1 h1
    exact ⟨size, crc, bs, h2, h3, h4⟩
  · rintro ⟨size, crc, bs, h2, h3, h4⟩
    refine ⟨size, crc, ((section_spec .never n1 n2 n3 n4 h).okIff T env s hT.1 hi hN _ _).2
      ⟨⟨bs, h2, h3, h4, fun h => by cases h⟩, hi.of_suffix hT ?_⟩⟩
    rw [h3, ← List.append_assoc, ← List.append_assoc]; exact List.suffix_append _ _

/-- C07. The error of `on_error_check_crc` in terms of the error `e` of
`never_check_crc`: if the header does not parse, `CorruptReplay("header", e)` on a
checksum mismatch of the declared header bytes and `e` otherwise; if the body does not
parse, the same with the body; if both parse (so `e` is a network error), `e`. -/
theorem onError_error (hl : Room env data.length) (e : ParseError)
    (h : parseWith .never np env data = .err e) :
    ((¬ ∃ hd d2, SectionAt HeaderSec hd data d2) →
      (∀ c a, SecMismatch c a data →
        parseWith .onError np env data = .err (.corruptReplay "header" e)) ∧
      ((∀ c a, ¬ SecMismatch c a data) → parseWith .onError np env data = .err e)) ∧
    (∀ hd d2, SectionAt HeaderSec hd data d2 → (¬ ∃ b d3, SectionAt BodySec b d2 d3) →
      (∀ c a, SecMismatch c a d2 →
        parseWith .onError np env data = .err (.corruptReplay "body" e)) ∧
      ((∀ c a, ¬ SecMismatch c a d2) → parseWith .onError np env data = .err e)) ∧
    (∀ hd d2 b d3, SectionAt HeaderSec hd data d2 → SectionAt BodySec b d2 d3 →
      parseWith .onError np env data = .err e) := by
  have hi0 := CoreInv.init (env := env) (data := data)
  have hH := sectionAt_iff env (parseHeader_spec (N := data.length)) "header size" "header crc"
    "header data" "header" hl (CoreSt.init data) hi0 (Nat.le_refl _)
  obtain ⟨o1, o2, o3⟩ := section_onError parseHeader "header size" "header crc" "header data"
    "header" env hl (CoreSt.init data) hi0
  rw [parseWith_eq] at h ⊢
  unfold front at h ⊢
  simp only [bind, P.bind] at h ⊢
  cases h1 : section_ .never "header size" "header crc" "header data" "header" parseHeader env
      (CoreSt.init data) with
  | fault f => rw [h1] at h; cases h
  | err e1 s1 =>
    rw [h1] at h; cases h
    have hno : ¬ ∃ hd d2, SectionAt HeaderSec hd data d2 := by
      rintro ⟨hd, d2, hs⟩
      obtain ⟨_, _, h2⟩ := (hH hd d2).2 hs
      rw [h1] at h2; cases h2
    refine ⟨fun _ => ⟨fun c a hm => ?_, fun hm => ?_⟩, fun hd d2 hs => (hno ⟨hd, d2, hs⟩).elim,
      fun hd d2 b d3 hs => (hno ⟨hd, d2, hs⟩).elim⟩
    · rw [(o3 _ _ h1).1 c a hm]
    · rw [(o3 _ _ h1).2 hm]
  | ok x s1 =>
    rw [h1] at h
    simp only at h
    rw [o1 _ _ h1]
    simp only
    obtain ⟨hr1, hi1⟩ := ((section_spec .never "header size" "header crc" "header data" "header"
      (parseHeader_spec (N := data.length))).okIff data.length env (CoreSt.init data) hl.1 hi0
      (Nat.le_refl _) x s1).1 h1
    have hsec : ∀ hd d2, SectionAt HeaderSec hd data d2 → d2 = s1.data := by
      intro hd d2 hs
      obtain ⟨_, _, h2⟩ := (hH hd d2).2 hs
      rw [h1] at h2
      cases h2; rfl
    obtain ⟨p1, p2, p3⟩ := section_onError parseBody "content size" "content crc" "content data"
      "body" env hl s1 hi1
    have hB := sectionAt_iff env (parseBody_spec (N := s1.data.length)) "content size" "content crc"
      "content data" "body" hl s1 hi1 (Nat.le_refl _)
    refine ⟨fun hno => ?_, fun hd d2 hs hno => ?_, fun hd d2 b d3 hs hb => ?_⟩
    · exfalso
      obtain ⟨bs, g1, g2, g3, _⟩ := hr1
      exact hno ⟨_, _, _, _, bs, g1, g2, g3⟩
    · obtain rfl := hsec hd d2 hs
      cases h2 : section_ .never "content size" "content crc" "content data" "body" parseBody env s1 with
      | fault f => rw [h2] at h; cases h
      | err e2 s2 =>
        rw [h2] at h; cases h
        refine ⟨fun c a hm => ?_, fun hm => ?_⟩
        · rw [(p3 _ _ h2).1 c a hm]
        · rw [(p3 _ _ h2).2 hm]
      | ok y s2 =>
        exfalso
        obtain ⟨⟨bs, g1, g2, g3, _⟩, _⟩ := ((section_spec .never "content size" "content crc"
          "content data" "body" (parseBody_spec (N := s1.data.length))).okIff data.length env s1 hl.1 hi1
          (Nat.le_refl _) y s2).1 h2
        exact hno ⟨_, _, _, _, bs, g1, g2, g3⟩
    · obtain rfl := hsec hd d2 hs
      obtain ⟨_, _, h2⟩ := (hB b d3).2 hb
      rw [h2] at h
      rw [p1 _ _ h2]
      exact h

/-- Both reclassifications occur: an unknown property kind in the header, a list that is
too long in the body. -/
example :
    parseWith .never .always Env.default64 (sample.set 45 0x61#8) = .err
      (.parseError "header properties" 57 (.unexpectedProperty "IntPropeaty".toList)) ∧
    parseWith .onError .always Env.default64 (sample.set 45 0x61#8) = .err (.corruptReplay "header"
      (.parseError "header properties" 57 (.unexpectedProperty "IntPropeaty".toList))) ∧
    parseWith .never .always Env.default64 (sample.set 80 1#8) = .err
      (.parseError "levels" 82 (.listTooLarge 65536)) ∧
    parseWith .onError .always Env.default64 (sample.set 80 1#8) = .err (.corruptReplay "body"
      (.parseError "levels" 82 (.listTooLarge 65536))) := by
  refine ⟨?_, ?_, ?_, ?_⟩ <;> apply eq_of_failsWith <;> decide +kernel

/-! ## C08 -/

/-- C08. What `always_check_crc` accepts, the other policies accept with the same
replay. -/
theorem always_ok_others (hl : data.length ≤ env.isizeMax) (r : Replay) (check : CrcCheck)
    (h : parseWith .always np env data = .ok r) : parseWith check np env data = .ok r := by
  rw [parseWith_ok_iff_all _ _ _ _ hl] at h ⊢
  obtain ⟨x, rest, net, ⟨bh, bb, h1, h2, h3, h4, h5, hc⟩, hw, hn, rfl⟩ := h
  exact ⟨x, rest, net, ⟨bh, bb, h1, h2, h3, h4, h5, fun _ => hc (by decide)⟩, hw, hn, rfl⟩

/-- A checksum error anywhere in an error. -/
def mentionsCrc : ParseError → Prop
  | .crcMismatch _ _ => True
  | .corruptReplay _ _ => True
  | .parseError _ _ e => mentionsCrc e
  | _ => False

/-- C08. `never_check_crc` never reports a checksum problem, not even inside another
error. -/
theorem never_no_crc_error (e : ParseError) (h : parseWith .never np env data = .err e) :
    ¬ mentionsCrc e := by
  have plain : ∀ e, Plain e → ¬ mentionsCrc e := by
    intro e
    induction e with
    | parseError s o e ih => exact ih
    | crcMismatch => exact fun h => h.elim
    | corruptReplay => exact fun h => h.elim
    | _ => exact fun _ h => h
  rw [parseWith_eq] at h
  cases hf : front .never env (CoreSt.init data) with
  | ok x s =>
    rw [hf] at h
    simp only at h
    cases hn : networkStep np x.header x.body env s with
    | ok net s' => rw [hn] at h; cases h
    | fault f => rw [hn] at h; cases h
    | err e' s' =>
      rw [hn] at h; cases h
      unfold networkStep at hn
      cases np with
      | never => cases hn
      | always =>
        simp only at hn
        cases hp : Network.parse env x.header x.body <;> rw [hp] at hn <;> cases hn
        exact fun h => h
      | ignoreOnError =>
        simp only at hn
        cases hp : Network.parse env x.header x.body <;> rw [hp] at hn <;> cases hn
  | err e' s =>
    rw [hf] at h; cases h
    exact plain _ (PlainErr.front env _ _ _ hf)
  | fault f => rw [hf] at h; cases h

/-- The sample is an instance of both: it is accepted by all policies, and with a bad
checksum only `always_check_crc` complains. -/
example : (∀ check, ∃ r, parseWith check .always Env.default64 sample = .ok r) ∧
    (∃ r, parseWith .never .always Env.default64 (sample.set 9 4#8) = .ok r) := by
  constructor
  · intro check
    obtain ⟨r, h⟩ := sample_ok
    exact ⟨r, always_ok_others .always _ _ (by decide) r check h⟩
  · have h : (match parseWith .never .always Env.default64 (sample.set 9 4#8) with
      | .ok r => decide (r.majorVersion = 0x464) | _ => false) = true := by decide +kernel
    cases hp : parseWith .never .always Env.default64 (sample.set 9 4#8) with
    | ok r => exact ⟨r, rfl⟩
    | err e => rw [hp] at h; cases h
    | fault f => rw [hp] at h; cases h

/-! ## C10 -/

/-- A builder call. -/
inductive Call where
  | alwaysCheckCrc | neverCheckCrc | onErrorCheckCrc | withCrcCheck (c : CrcCheck)
  | mustParseNetworkData | neverParseNetworkData | ignoreNetworkDataOnError
  | withNetworkParse (p : NetworkParse)

/-- Perform a call. -/
def Call.run (b : ParserBuilder) : Call → ParserBuilder
  | .alwaysCheckCrc => b.alwaysCheckCrc
  | .neverCheckCrc => b.neverCheckCrc
  | .onErrorCheckCrc => b.onErrorCheckCrc
  | .withCrcCheck c => b.withCrcCheck c
  | .mustParseNetworkData => b.mustParseNetworkData
  | .neverParseNetworkData => b.neverParseNetworkData
  | .ignoreNetworkDataOnError => b.ignoreNetworkDataOnError
  | .withNetworkParse p => b.withNetworkParse p

/-- The checksum policy a call names. -/
def Call.crc : Call → Option CrcCheck
  | .alwaysCheckCrc => some .always
  | .neverCheckCrc => some .never
  | .onErrorCheckCrc => some .onError
  | .withCrcCheck c => some c
  | _ => none

/-- The network policy a call names. -/
def Call.net : Call → Option NetworkParse
  | .mustParseNetworkData => some .always
  | .neverParseNetworkData => some .never
  | .ignoreNetworkDataOnError => some .ignoreOnError
  | .withNetworkParse p => some p
  | _ => none

/-- C10. After any sequence of builder calls, `parse` uses the last checksum policy
named and, independently, the last network policy named; the defaults are on-error
checking and ignoring network errors. -/
theorem builder_last_wins (calls : List Call) :
    (calls.foldl Call.run ParserBuilder.new).parse env data =
      parseWith ((calls.filterMap Call.crc).getLast?.getD .onError)
        ((calls.filterMap Call.net).getLast?.getD .ignoreOnError) env data := by
  have h : ∀ b : ParserBuilder, calls.foldl Call.run b =
      ⟨(calls.filterMap Call.crc).getLast?.or b.crcCheck,
        (calls.filterMap Call.net).getLast?.or b.networkParse⟩ := by
    induction calls with
    | nil => intro b; simp
    | cons c calls ih =>
      intro b
      rw [List.foldl_cons, ih]
      cases c <;>
        simp [Call.run, Call.crc, Call.net, ParserBuilder.alwaysCheckCrc, ParserBuilder.neverCheckCrc,
          ParserBuilder.onErrorCheckCrc, ParserBuilder.withCrcCheck, ParserBuilder.mustParseNetworkData,
          ParserBuilder.neverParseNetworkData, ParserBuilder.ignoreNetworkDataOnError,
          ParserBuilder.withNetworkParse, List.getLast?_cons]
  rw [h]
  unfold parseWith ParserBuilder.parse ParserBuilder.new
  simp

/-- Each convenience method is the corresponding `with_*` call. -/
theorem builder_convenience (b : ParserBuilder) :
    b.alwaysCheckCrc = b.withCrcCheck .always ∧ b.neverCheckCrc = b.withCrcCheck .never ∧
    b.onErrorCheckCrc = b.withCrcCheck .onError ∧
    b.mustParseNetworkData = b.withNetworkParse .always ∧
    b.neverParseNetworkData = b.withNetworkParse .never ∧
    b.ignoreNetworkDataOnError = b.withNetworkParse .ignoreOnError :=
  ⟨rfl, rfl, rfl, rfl, rfl, rfl⟩

/-- A mixed sequence. -/
example : (([.neverCheckCrc, .mustParseNetworkData, .alwaysCheckCrc] : List Call).foldl Call.run
    ParserBuilder.new).parse env data = parseWith .always .always env data :=
  builder_last_wins env data _

end Boxcars.Props
