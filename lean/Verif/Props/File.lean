import Verif.Proofs.Run
import Verif.Proofs.Encode
import Verif.Proofs.Plain
import Verif.Proofs.Section
import Verif.Props.Sample
import Verif.Props.Policy
/-!
# C11, C12, C13, C21, C22, C23: whole files
-/
namespace Boxcars.Props
open Boxcars Spec

variable (check : CrcCheck) (np : NetworkParse) (env : Env)

/-! ## C11, C12 -/

theorem take_append_of_fits {size : BitVec 32} {d t : Bytes} (h : Fits size d.length) :
    (d ++ t).take size.toNat = d.take size.toNat :=
  List.take_append_of_le_length h.2

/-- C11. Bytes after an accepted file are ignored. -/
theorem trailing_ignored (data t : Bytes) (r : Replay) (hl : (data ++ t).length ≤ env.isizeMax)
    (h : parseWith check np env data = .ok r) : parseWith check np env (data ++ t) = .ok r := by
  have hl' : data.length ≤ env.isizeMax := by rw [List.length_append] at hl; omega
  rw [parseWith_ok_iff_all _ _ _ _ hl'] at h
  rw [parseWith_ok_iff_all _ _ _ _ hl]
  obtain ⟨x, rest, net, ⟨bh, bb, h1, h2, h3, h4, h5, h6⟩, hw, hn, rfl⟩ := h
  have fits : ∀ {size : BitVec 32} {a : Nat} (b : Nat), Fits size a → Fits size (a + b) :=
    fun b h => ⟨h.1, by have := h.2; omega⟩
  refine ⟨x, rest ++ t, net, ⟨bh, bb, h1, h2, ?_, ?_, ?_, ?_⟩, hw.append t, hn, rfl⟩
  · rw [h3]; simp only [List.append_assoc]
  · have := fits t.length h4
    rw [← List.length_append] at this
    simpa only [List.append_assoc] using this
  · have := fits t.length h5
    rw [← List.length_append] at this
    simpa only [List.append_assoc] using this
  · intro hc
    have e1 := take_append_of_fits (t := t) h4
    have e2 := take_append_of_fits (t := t) h5
    simp only [List.append_assoc] at e1 e2
    rw [e1, e2]
    simpa only [List.append_assoc] using h6 hc

/-- C12. A truncated file is rejected or gives the same replay. -/
theorem truncation_safe (data : Bytes) (n : Nat) (r r' : Replay) (hl : data.length ≤ env.isizeMax)
    (h : parseWith check np env (data.take n) = .ok r) (h' : parseWith check np env data = .ok r') :
    r = r' := by
  have := trailing_ignored check np env (data.take n) (data.drop n) r
    (by rwa [List.take_append_drop]) h
  rw [List.take_append_drop, h'] at this
  cases this; rfl

/-- The sample followed by junk is an instance of `trailing_ignored`. -/
example : ∃ r, parseWith .always .always Env.default64 sample = .ok r ∧
    parseWith .always .always Env.default64 (sample ++ [1, 2, 3]) = .ok r := by
  obtain ⟨r, h⟩ := sample_ok
  exact ⟨r, h, trailing_ignored _ _ _ _ _ _ (Room.of_lt (by decide)).1 h⟩

/-! ## C13 -/

/-- C13. Any file of the grammar with correct checksums is read as it says, whatever the
checksum policy. -/
theorem grammar_accepted (x : Sections) (bs rest : Bytes) (hl : bs.length ≤ env.isizeMax)
    (hw : Within env bs rest) (h : FileSecs true x bs rest) :
    parseWith check .never env bs = .ok (x.replay none) := by
  rw [parseWith_ok_iff_all _ _ _ _ hl]
  obtain ⟨bh, bb, h1, h2, h3, h4, h5, h6⟩ := h
  exact ⟨x, rest, none, ⟨bh, bb, h1, h2, h3, h4, h5, fun _ => h6 rfl⟩, hw, rfl, rfl⟩

/-- C13. Encoding a representable header and body as a file and parsing it returns
exactly that header and body, for every checksum policy, whatever follows the file. -/
theorem file_round_trip (h : Header) (b : ReplayBody) (hh : HeaderOk h) (hb : BodyOk b)
    (rest : Bytes) (hl : (encFile h b).length < 2 ^ 31)
    (hr : (encFile h b ++ rest).length ≤ env.isizeMax) :
    parseWith check .never env (encFile h b ++ rest) = .ok ((fileSections h b).replay none) :=
  grammar_accepted _ _ _ _ _ hr (Within.of_append hl) (fileSecs_enc hh hb rest hl)

/-- C13, with network data: the frames are those the network data decodes to. -/
theorem file_round_trip_network (h : Header) (b : ReplayBody) (hh : HeaderOk h) (hb : BodyOk b)
    (rest : Bytes) (hl : (encFile h b).length < 2 ^ 31)
    (hr : (encFile h b ++ rest).length ≤ env.isizeMax) (f : NetworkFrames)
    (hf : Network.parse env h b = .ok f) (hnp : np ≠ .never) :
    parseWith check np env (encFile h b ++ rest) = .ok ((fileSections h b).replay (some f)) := by
  have hs := fileSecs_enc hh hb rest hl
  rw [parseWith_ok_iff_all _ _ _ _ hr]
  obtain ⟨bh, bb, h1, h2, h3, h4, h5, h6⟩ := hs
  refine ⟨_, rest, some f, ⟨bh, bb, h1, h2, h3, h4, h5, fun _ => h6 rfl⟩, Within.of_append hl, ?_, rfl⟩
  cases np with
  | never => exact (hnp rfl).elim
  | always => exact ⟨f, hf, rfl⟩
  | ignoreOnError => exact .inl ⟨f, hf, rfl⟩

/-- The round trip is not vacuous: a header with nested arrays and structs and a body
with non-empty lists are representable. -/
def richHeader : Header :=
  { majorVersion := 868, minorVersion := 20, netVersion := some 10, gameType := "TAGame".toList
    properties := [("Goals".toList, .array [[("f".toList, .int 3), ("f".toList, .bool true)], []]),
      ("S".toList, .struct "T".toList [("n".toList, .name "Ω".toList)]),
      ("P".toList, .byte "K".toList (some "V".toList)), ("Q".toList, .qword 7)] }

def richBody : ReplayBody :=
  { levels := ["lvl".toList], keyframes := [⟨1, 2, 3⟩], debugInfo := [⟨1, "u".toList, "t".toList⟩]
    tickMarks := [⟨"Team0Goal".toList, 5⟩], packages := ["p".toList], objects := ["o".toList, "€".toList]
    names := ["😀".toList], classIndices := [⟨"Core.Object".toList, 0⟩]
    netCache := [⟨0, 1, 1, [⟨0, 4⟩, ⟨1, -1⟩]⟩], networkData := [1, 2, 3] }

theorem richHeader_ok : HeaderOk richHeader := by
  refine ⟨by decide, ?_, ?_⟩
  · decide +kernel
  · simp only [richHeader, isQuirks, PropsOk, PropOk, ValOk, ElemsOk, StrOk]
    decide +kernel

theorem richBody_ok : BodyOk richBody := by
  unfold BodyOk ListOk StrOk richBody
  simp only [List.length_cons, List.length_nil, List.mem_cons, List.not_mem_nil, or_false,
    forall_eq_or_imp, forall_eq, implies_true, and_true]
  decide +kernel

example : parseWith .always .never Env.default64 (encFile richHeader richBody) =
    .ok ((fileSections richHeader richBody).replay none) := by
  have := file_round_trip .always Env.default64 richHeader richBody richHeader_ok richBody_ok []
    (by decide +kernel) (Room.of_lt (by decide +kernel)).1
  rwa [List.append_nil] at this

/-! ## C21 -/

/-- The offsets mentioned in an error. -/
def offsets : ParseError → List I32
  | .parseError _ off e => off :: offsets e
  | .corruptReplay _ e => offsets e
  | _ => []

theorem offsets_of_errAt {c : I32} {e : ParseError} (h : ErrAt c e) : ∀ o ∈ offsets e, o = c := by
  induction e with
  | parseError s off e ih =>
    intro o ho
    rcases List.mem_cons.1 ho with rfl | ho
    · exact h.1
    · exact ih h.2 o ho
  | corruptReplay s e ih => exact ih h
  | _ => intro o ho; cases ho

/-- C21. If parsing a section fails, every offset in the error is the number of bytes
consumed at the point of failure, modulo 2^32. With overflow checks fewer than 2 GiB have
been consumed. -/
theorem offsets_are_consumed_mod (data : Bytes) (hl : data.length ≤ env.isizeMax) (e : ParseError)
    (s : CoreSt) (h : front check env (CoreSt.init data) = .err e s) :
    s.data <:+ data ∧ (∀ o ∈ offsets e, o = BitVec.ofNat 32 (data.length - s.data.length)) ∧
      (env.checks = true → data.length - s.data.length < 2 ^ 31) := by
  obtain ⟨hi, hs, he⟩ := (front_spec check).errInv data.length env _ hl CoreInv.init (Nat.le_refl _) e s h
  exact ⟨hs, fun o ho => by rw [offsets_of_errAt he o ho]; exact hi.2.1, hi.2.2⟩

/-- C21. If parsing a section fails, every offset in the error is the number of bytes
consumed at the point of failure. Without overflow checks this is for inputs of less than
2 GiB. -/
theorem offsets_are_consumed (data : Bytes) (hl : data.length ≤ env.isizeMax)
    (hc : env.checks = false → data.length < 2 ^ 31) (e : ParseError) (s : CoreSt)
    (h : front check env (CoreSt.init data) = .err e s) :
    s.data <:+ data ∧ ∀ o ∈ offsets e, o.toInt = data.length - s.data.length := by
  obtain ⟨hs, ho, hk⟩ := offsets_are_consumed_mod check env data hl e s h
  refine ⟨hs, fun o h' => ?_⟩
  have hle := hs.length_le
  have : data.length - s.data.length < 2 ^ 31 := by
    cases hb : env.checks with
    | true => exact hk hb
    | false => have := hc hb; omega
  rw [ho o h', BitVec.toInt_ofNat', Int.bmod_eq_of_le] <;> omega

/-- C21. Every offset in the error returned by `parse` lies between 0 and the input
length. -/
theorem offsets_in_range (data : Bytes) (hl : data.length ≤ env.isizeMax)
    (hc : env.checks = false → data.length < 2 ^ 31) (e : ParseError)
    (h : parseWith check np env data = .err e) :
    ∀ o ∈ offsets e, 0 ≤ o.toInt ∧ o.toInt ≤ data.length := by
  rw [parseWith_eq] at h
  cases hf : front check env (CoreSt.init data) with
  | ok x s =>
    rw [hf] at h
    simp only at h
    cases hn : networkStep np x.header x.body env s with
    | ok net s' => rw [hn] at h; cases h
    | fault f => rw [hn] at h; cases h
    | err e' s' =>
      rw [hn] at h; cases h
      unfold networkStep at hn
      cases np with
      | never => cases hn
      | always =>
        simp only at hn
        cases hp : Network.parse env x.header x.body <;> rw [hp] at hn <;> cases hn
        intro o ho; cases ho
      | ignoreOnError =>
        simp only at hn
        cases hp : Network.parse env x.header x.body <;> rw [hp] at hn <;> cases hn
  | err e' s =>
    rw [hf] at h; cases h
    obtain ⟨hs, ho⟩ := offsets_are_consumed check env data hl hc _ s hf
    intro o h
    have := hs.length_le
    rw [ho o h]
    omega
  | fault f => rw [hf] at h; cases h

/-- A truncated sample: the key of the property is cut off at offset 30. -/
example : parseWith .never .never Env.default64 (word 22 ++ (word 0 ++ ((sample.drop 8).take 22))) =
    .err (.parseError "header properties" 30 (.insufficientData 3 0)) := by
  apply eq_of_failsWith
  decide +kernel

/-! ## C22 (violated) -/

/-- C22 is false. Declared sizes do not delimit the sections, so checksums can be
bypassed: whatever two sections a file contains, writing sizes 0 and the checksum of no
bytes in front of them gives a file that `always_check_crc` accepts, with the same
content. Nothing in it is protected by a checksum. -/
theorem size_zero_bypasses_checksum (h : Header) (b : ReplayBody) (bh bb rest : Bytes)
    (hh : HeaderSec h bh) (hb : BodySec b bb)
    (hl : Room env (word 0 ++ (word (Crc.crc []) ++ (bh ++ (word 0 ++ (word (Crc.crc []) ++
      (bb ++ rest)))))).length) :
    parseWith .always .never env (word 0 ++ (word (Crc.crc []) ++ (bh ++
        (word 0 ++ (word (Crc.crc []) ++ (bb ++ rest)))))) =
      .ok ((⟨0, Crc.crc [], h, 0, Crc.crc [], b⟩ : Sections).replay none) := by
  rw [parseWith_ok_iff _ _ _ _ hl]
  refine ⟨⟨0, Crc.crc [], h, 0, Crc.crc [], b⟩, rest, none, ⟨bh, bb, hh, hb, rfl, ?_, ?_, fun _ => ⟨?_, ?_⟩⟩,
    rfl, rfl⟩
  · exact ⟨by show (0 : Int) ≤ (0#32).toInt; decide, Nat.zero_le _⟩
  · exact ⟨by show (0 : Int) ≤ (0#32).toInt; decide, Nat.zero_le _⟩
  · rfl
  · rfl

/-- The statement of C22, for one file: the header lies within its declared size. -/
def SizesDelimit (data : Bytes) : Prop :=
  ∀ (x : Sections) (rest bh bb : Bytes), HeaderSec x.header bh → BodySec x.body bb →
    data = word x.headerSize ++ (word x.headerCrc ++ (bh ++ (word x.contentSize ++
      (word x.contentCrc ++ (bb ++ rest))))) → x.headerSize.toNat = bh.length

/-- C22 fails for a concrete file accepted under `always_check_crc`. -/
theorem sizes_do_not_delimit :
    ∃ data r, parseWith .always .never Env.default64 data = .ok r ∧ ¬ SizesDelimit data := by
  refine ⟨_, _, size_zero_bypasses_checksum Env.default64 sampleHeader sampleBody _ _ []
    sample_headerSec sample_bodySec (Room.of_lt (by decide +kernel)), fun h => ?_⟩
  have := h ⟨0, Crc.crc [], sampleHeader, 0, Crc.crc [], sampleBody⟩ [] _ _ sample_headerSec
    sample_bodySec rfl
  have hl : sampleHeaderBytes.length = 62 := by decide +kernel
  rw [hl] at this
  exact absurd this (by decide)

/-! ## C23 -/

/-- `b` differs from `a` only inside a window of at most 32 consecutive bits, and does
differ. -/
def Burst (a b : Bytes) : Prop :=
  ∃ pre w w' post, Crc.messageBits a = pre ++ w ++ post ∧ Crc.messageBits b = pre ++ w' ++ post ∧
    w.length = w'.length ∧ w.length ≤ 32 ∧ w ≠ w'

theorem Burst.crc_ne {a b : Bytes} (h : Burst a b) : Crc.crc a ≠ Crc.crc b := by
  obtain ⟨pre, w, w', post, h1, h2, h3, h4, h5⟩ := h
  have := calcCrc_detects_burst a b pre w w' post h1 h2 h3 h4 h5
  rwa [calcCrc_eq_spec, calcCrc_eq_spec] at this

theorem messageBits_length (a : Bytes) : (Crc.messageBits a).length = 8 * a.length := by
  unfold Crc.messageBits
  induction a with
  | nil => rfl
  | cons b a ih =>
    rw [List.flatMap_cons, List.length_append, ih, List.length_cons]
    have : (Crc.msbFirst b).length = 8 := rfl
    omega

theorem Burst.length {a b : Bytes} (h : Burst a b) : a.length = b.length := by
  obtain ⟨pre, w, w', post, h1, h2, h3, _⟩ := h
  have e1 := messageBits_length a
  have e2 := messageBits_length b
  rw [h1] at e1
  rw [h2] at e2
  simp only [List.length_append] at e1 e2
  omega

/-- `b` is as long as `a` and has another checksum. -/
def Noticed (a b : Bytes) : Prop := a.length = b.length ∧ Crc.crc a ≠ Crc.crc b

theorem Burst.noticed {a b : Bytes} (h : Burst a b) : Noticed a b := ⟨h.length, h.crc_ne⟩

theorem Noticed.secMismatch {size crc : BitVec 32} {d d' t : Bytes} (hb : Noticed d d')
    (hd : d.length = size.toNat) (hs : 0 ≤ size.toInt) (hc : Crc.crc d = crc) :
    SecMismatch crc (Crc.crc d') (word size ++ (word crc ++ (d' ++ t))) := by
  have hlen := hb.1
  refine ⟨size, d' ++ t, rfl, ⟨hs, ?_⟩, ?_, ?_⟩
  · rw [List.length_append]; omega
  · rw [List.take_left' (by omega)]
  · rw [← hc]; exact fun h => hb.2 h.symm

/-- C23. Any change of the declared bytes of the header of an accepted file that changes
their checksum is reported as a mismatch. -/
theorem header_change_detected (hsize hcrc : BitVec 32) (d d' t : Bytes) (r : Replay)
    (hl : Room env (word hsize ++ (word hcrc ++ (d ++ t))).length)
    (hd : d.length = hsize.toNat) (hb : Noticed d d')
    (h : parseWith .always np env (word hsize ++ (word hcrc ++ (d ++ t))) = .ok r) :
    parseWith .always np env (word hsize ++ (word hcrc ++ (d' ++ t))) =
      .err (.crcMismatch hcrc (Crc.crc d')) := by
  obtain ⟨d1, bh, d2, e1, _, hf, _, hc, _⟩ := always_ok_crc np env _ hl.1 r h
  obtain ⟨e2, e3⟩ := word_append_inj e1
  obtain ⟨e4, e5⟩ := word_append_inj e3
  rw [← e2, ← e4, ← e5, List.take_left' hd] at hc
  rw [← e2] at hf
  have hlen := hb.1
  exact always_header_mismatch np env _ (hl.mono (by simp only [List.length_append]; omega)) _ _
    (hb.secMismatch hd hf.1 hc)

/-- C23. Any change of the declared bytes of the body of an accepted file that changes
their checksum is reported as a mismatch (of the body, or of the header if its declared
size reaches that far). -/
theorem body_change_detected (hsize hcrc csize ccrc : BitVec 32) (hdr : Header) (bh d d' t : Bytes)
    (r : Replay)
    (hl : Room env
      (word hsize ++ (word hcrc ++ (bh ++ (word csize ++ (word ccrc ++ (d ++ t)))))).length)
    (hh : HeaderSec hdr bh) (hd : d.length = csize.toNat) (hb : Noticed d d')
    (h : parseWith .always np env
      (word hsize ++ (word hcrc ++ (bh ++ (word csize ++ (word ccrc ++ (d ++ t)))))) = .ok r) :
    ∃ c a, parseWith .always np env
      (word hsize ++ (word hcrc ++ (bh ++ (word csize ++ (word ccrc ++ (d' ++ t)))))) =
        .err (.crcMismatch c a) := by
  obtain ⟨x, rest, net, ⟨bh', bb, h1, h2, h3, h4, h5, h6⟩, _, rfl⟩ :=
    parseWith_ok_of hl.1 h
  obtain ⟨e2, e3⟩ := word_append_inj h3
  obtain ⟨e4, e5⟩ := word_append_inj e3
  -- the header is where it is
  have hlb : (bh ++ (word csize ++ (word ccrc ++ (d ++ t)))).length ≤
      (word hsize ++ (word hcrc ++ (bh ++ (word csize ++ (word ccrc ++ (d ++ t)))))).length := by
    simp only [List.length_append]; omega
  have r1 := parseHeader_spec.run hl hlb hh
  have r2 := parseHeader_spec.run hl (by rw [e5] at hlb; rw [e5]; exact hlb) h1
  rw [← e5, r1] at r2
  have e6 : word csize ++ (word ccrc ++ (d ++ t)) =
      word x.contentSize ++ (word x.contentCrc ++ (bb ++ rest)) := by
    have := PRes.ok.inj r2
    exact congrArg CoreSt.data this.2
  obtain ⟨e7, e8⟩ := word_append_inj e6
  obtain ⟨e9, e10⟩ := word_append_inj e8
  obtain ⟨hc1, hc2⟩ := h6 (by decide)
  rw [← e10, ← e7, ← e9, List.take_left' hd] at hc2
  have hmis := hb.secMismatch (t := t) hd (by rw [e7]; exact h5.1) hc2
  have hlen := hb.1
  have hl' : Room env
      (word hsize ++ (word hcrc ++ (bh ++ (word csize ++ (word ccrc ++ (d' ++ t)))))).length :=
    hl.mono (by simp only [List.length_append]; omega)
  have hfit : Fits hsize (bh ++ (word csize ++ (word ccrc ++ (d' ++ t)))).length := by
    rw [e2]
    refine ⟨h4.1, ?_⟩
    have := h4.2
    rw [← e5] at this
    simp only [List.length_append] at this ⊢
    omega
  by_cases hc : Crc.crc ((bh ++ (word csize ++ (word ccrc ++ (d' ++ t)))).take hsize.toNat) = hcrc
  · exact ⟨_, _, always_body_mismatch np env _ hl' _ _ hdr hsize hcrc bh _ hh rfl hfit hc hmis⟩
  · exact ⟨_, _, always_header_mismatch np env _ hl' _ _ ⟨hsize, _, rfl, hfit, rfl, hc⟩⟩

/-- C23. Any error burst of at most 32 bits inside the declared bytes of the header of
an accepted file is reported as a checksum mismatch. -/
theorem header_burst_detected (hsize hcrc : BitVec 32) (d d' t : Bytes) (r : Replay)
    (hl : Room env (word hsize ++ (word hcrc ++ (d ++ t))).length)
    (hd : d.length = hsize.toNat) (hb : Burst d d')
    (h : parseWith .always np env (word hsize ++ (word hcrc ++ (d ++ t))) = .ok r) :
    parseWith .always np env (word hsize ++ (word hcrc ++ (d' ++ t))) =
      .err (.crcMismatch hcrc (Crc.crc d')) :=
  header_change_detected np env hsize hcrc d d' t r hl hd hb.noticed h

/-- C23. Any error burst of at most 32 bits inside the declared bytes of the body of an
accepted file is reported as a checksum mismatch (of the body, or of the header if its
declared size reaches that far). -/
theorem body_burst_detected (hsize hcrc csize ccrc : BitVec 32) (hdr : Header) (bh d d' t : Bytes)
    (r : Replay)
    (hl : Room env
      (word hsize ++ (word hcrc ++ (bh ++ (word csize ++ (word ccrc ++ (d ++ t)))))).length)
    (hh : HeaderSec hdr bh) (hd : d.length = csize.toNat) (hb : Burst d d')
    (h : parseWith .always np env
      (word hsize ++ (word hcrc ++ (bh ++ (word csize ++ (word ccrc ++ (d ++ t)))))) = .ok r) :
    ∃ c a, parseWith .always np env
      (word hsize ++ (word hcrc ++ (bh ++ (word csize ++ (word ccrc ++ (d' ++ t)))))) =
        .err (.crcMismatch c a) :=
  body_change_detected np env hsize hcrc csize ccrc hdr bh d d' t r hl hh hd hb.noticed h

/-- C22, what does hold: where the declared sizes are the sizes of the sections, every
decoded byte is protected, in the sense that a burst of errors anywhere in the header or
body makes `always_check_crc` fail. -/
theorem decoded_bytes_protected_partial (h : Header) (b : ReplayBody) (hcrc ccrc : BitVec 32)
    (bh bb rest : Bytes) (r : Replay) (hh : HeaderSec h bh) (_ : BodySec b bb)
    (hl : Room env (word (BitVec.ofNat 32 bh.length) ++ (word hcrc ++ (bh ++
      (word (BitVec.ofNat 32 bb.length) ++ (word ccrc ++ (bb ++ rest)))))).length)
    (hn : bh.length < 2 ^ 31) (hn' : bb.length < 2 ^ 31)
    (hp : parseWith .always np env (word (BitVec.ofNat 32 bh.length) ++ (word hcrc ++ (bh ++
      (word (BitVec.ofNat 32 bb.length) ++ (word ccrc ++ (bb ++ rest)))))) = .ok r) :
    (∀ bh', Burst bh bh' → ∃ c a, parseWith .always np env (word (BitVec.ofNat 32 bh.length) ++
      (word hcrc ++ (bh' ++ (word (BitVec.ofNat 32 bb.length) ++ (word ccrc ++ (bb ++ rest)))))) =
        .err (.crcMismatch c a)) ∧
    (∀ bb', Burst bb bb' → ∃ c a, parseWith .always np env (word (BitVec.ofNat 32 bh.length) ++
      (word hcrc ++ (bh ++ (word (BitVec.ofNat 32 bb.length) ++ (word ccrc ++ (bb' ++ rest)))))) =
        .err (.crcMismatch c a)) := by
  have e : ∀ n : Nat, n < 2 ^ 31 → n = (BitVec.ofNat 32 n).toNat := fun n hn =>
    ((size_iff (BitVec.ofNat 32 n) n hn).2 rfl).2
  refine ⟨fun bh' hb => ⟨_, _, header_burst_detected np env _ _ _ _ _ r hl (e _ hn) hb hp⟩,
    fun bb' hb => body_burst_detected np env _ _ _ _ h bh bb bb' rest r hl hh (e _ hn') hb hp⟩

/-- The sample with a burst in the header. -/
example : parseWith .always .always Env.default64 (word 0x3e ++ (word 0xd007b860 ++
      ((0x9b :: 0xfc :: sampleHeaderBytes.drop 2) ++ sample.drop 70))) =
    .err (.crcMismatch 0xd007b860 (Crc.crc (0x9b :: 0xfc :: sampleHeaderBytes.drop 2))) := by
  obtain ⟨r, h⟩ := sample_ok
  have e : sample = word 0x3e ++ (word 0xd007b860 ++ (sampleHeaderBytes ++ sample.drop 70)) := by
    decide +kernel
  rw [e] at h
  refine header_burst_detected .always Env.default64 _ _ _ _ _ r (Room.of_lt (by decide +kernel)) (by decide +kernel)
    ⟨[], (Crc.messageBits sampleHeaderBytes).take 16, (Crc.messageBits [0x9b, 0xfc]),
      (Crc.messageBits sampleHeaderBytes).drop 16, ?_⟩ h
  decide +kernel

end Boxcars.Props
