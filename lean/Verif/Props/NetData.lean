import Verif.Spec.Depends
import Verif.Proofs.FileFail
import Verif.Props.Policy
import Verif.Props.NoPanic
/-!
# C76: the content of the network data and the rest of the replay
-/
namespace Boxcars.Props
open Boxcars Spec

/-- The state of the parser when `d` is left of `T` bytes. -/
def at_ (T : Nat) (d : Bytes) : CoreSt := ⟨d, BitVec.ofNat 32 (T - d.length)⟩

theorem init_at (data : Bytes) : CoreSt.init data = at_ data.length data := by
  simp [CoreSt.init, at_]

variable {T : Nat} {env : Env}

theorem inv {d : Bytes} (hT : Room env T) (hd : d.length ≤ T) : CoreInv env T (at_ T d) :=
  ⟨hd, rfl, fun hc => by have := hT.2 hc; omega⟩

theorem step {α : Type} {m : P α} {g : α → Bytes → Prop} (h : ∀ N, PSpec N m (ofG g)) {a : α}
    {b d : Bytes} (hg : g a b) (hT : Room env T) (hd : (b ++ d).length ≤ T) :
    m env (at_ T (b ++ d)) = .ok a (at_ T d) := by
  have := ((h (b ++ d).length).okIff T env (at_ T (b ++ d)) hT.1 (inv hT hd) (Nat.le_refl _) a
    (at_ T d)).2 ⟨⟨b, hg, rfl⟩, ?_⟩
  · exact this
  · rw [List.length_append] at hd
    exact inv hT (by omega)

/-- What a section does whose size and checksum are there. -/
theorem section_run {α : Type} (m : P α) (n1 n2 n3 n4 : String) (size crc : BitVec 32) (d : Bytes)
    (hT : Room env T) (hd : (word size ++ (word crc ++ d)).length ≤ T) :
    section_ .never n1 n2 n3 n4 m env (at_ T (word size ++ (word crc ++ d))) =
      if env.usizeOfI32 size ≤ d.length then
        (m >>= fun a => Pure.pure (size, crc, a)) env (at_ T d)
      else .err (.parseError n3 (BitVec.ofNat 32 (T - d.length)) (.insufficientData
        (i32OfNat (env.usizeOfI32 size)) (i32OfNat d.length))) (at_ T d) := by
  have hd' : (word crc ++ d).length ≤ T := by
    rw [List.length_append] at hd; omega
  unfold section_
  simp only [bind, P.bind]
  rw [step (fun N => takeI32_spec n1) (a := size) rfl hT hd]
  simp only
  rw [step (fun N => takeI32_spec n2) (a := crc) rfl hT hd']
  simp only [P.usize, P.wrap, viewData]
  by_cases hn : env.usizeOfI32 size ≤ d.length
  · rw [if_pos (show _ ≤ (at_ T d).data.length from hn), if_pos hn]
    simp only [crcSection]
    cases m env (at_ T d) <;> rfl
  · rw [if_neg (show ¬ _ ≤ (at_ T d).data.length from hn), if_neg hn]
    rfl

/-- The rest of the body. -/
def bodyTail (levels : List Str) (keyframes : List KeyFrame) (networkData : Bytes) : P ReplayBody :=
  P.wrap "debug info" parseDebuginfo >>= fun debugInfo =>
      P.wrap "tickmarks" parseTickmarks >>= fun tickMarks =>
      P.wrap "packages" textList >>= fun packages =>
      P.wrap "objects" textList >>= fun objects => P.wrap "names" textList >>= fun names =>
      P.wrap "class index" parseClassindex >>= fun classIndices =>
      P.wrap "net cache" parseClasscache >>= fun netCache =>
      Pure.pure {
        levels, keyframes, debugInfo, tickMarks, packages, objects, names,
        classIndices, netCache, networkData }

theorem bodyTail_any (levels : List Str) (keyframes : List KeyFrame) (net : Bytes) (s : CoreSt) :
    bodyTail levels keyframes net env s = match bodyTail levels keyframes [] env s with
      | .ok b s => .ok { b with networkData := net } s
      | .err e s => .err e s
      | .fault f => .fault f := by
  unfold bodyTail
  simp only [bind, P.bind, pure, P.pure]
  cases P.wrap "debug info" parseDebuginfo env s with
  | err | fault => rfl
  | ok _ s =>
  simp only
  cases P.wrap "tickmarks" parseTickmarks env s with
  | err | fault => rfl
  | ok _ s =>
  simp only
  cases P.wrap "packages" textList env s with
  | err | fault => rfl
  | ok _ s =>
  simp only
  cases P.wrap "objects" textList env s with
  | err | fault => rfl
  | ok _ s =>
  simp only
  cases P.wrap "names" textList env s with
  | err | fault => rfl
  | ok _ s =>
  simp only
  cases P.wrap "class index" parseClassindex env s with
  | err | fault => rfl
  | ok _ s =>
  simp only
  cases P.wrap "net cache" parseClasscache env s with
  | err | fault => rfl
  | ok _ s => rfl

theorem body_run {levels : List Str} {keyframes : List KeyFrame} {b2 b3 net d : Bytes}
    (h2 : ListField TextField levels b2) (h3 : ListField KeyFrameEnc keyframes b3)
    (hn : net.length < 2 ^ 31) (hT : Room env T)
    (hd : (b2 ++ (b3 ++ ((word (BitVec.ofNat 32 net.length) ++ net) ++ d))).length ≤ T) :
    parseBody env (at_ T (b2 ++ (b3 ++ ((word (BitVec.ofNat 32 net.length) ++ net) ++ d)))) =
      bodyTail levels keyframes net env (at_ T d) := by
  have hd1 : (b3 ++ ((word (BitVec.ofNat 32 net.length) ++ net) ++ d)).length ≤ T := by
    rw [List.length_append] at hd; omega
  have hd2 : ((word (BitVec.ofNat 32 net.length) ++ net) ++ d).length ≤ T := by
    rw [List.length_append] at hd1; omega
  rw [parseBody_eq]
  simp only [bind, P.bind]
  rw [step (fun N => textList_spec.wrap "levels") h2 hT hd]
  simp only
  rw [step (fun N => parseKeyframe_spec.wrap "keyframes") h3 hT hd1]
  simp only
  rw [step (fun N => blob_spec) (⟨hn, rfl⟩ : BlobField net _) hT hd2]
  rfl

/-- The run up to the network step. -/
theorem front_run {hs hc cs cc : BitVec 32} {h : Header} {levels : List Str}
    {keyframes : List KeyFrame} {b1 b2 b3 w suf d1 d2 : Bytes} (h1 : HeaderSec h b1)
    (h2 : ListField TextField levels b2) (h3 : ListField KeyFrameEnc keyframes b3)
    (hw : w.length < 2 ^ 31)
    (e2 : d2 = b2 ++ (b3 ++ ((word (BitVec.ofNat 32 w.length) ++ w) ++ suf)))
    (e1 : d1 = b1 ++ (word cs ++ (word cc ++ d2)))
    (hT : Room env (word hs ++ (word hc ++ d1)).length) :
    front .never env (CoreSt.init (word hs ++ (word hc ++ d1))) =
      if env.usizeOfI32 hs ≤ d1.length then
        if env.usizeOfI32 cs ≤ d2.length then
          match bodyTail levels keyframes [] env (at_ (word hs ++ (word hc ++ d1)).length suf) with
          | .ok b s => .ok ⟨hs, hc, h, cs, cc, { b with networkData := w }⟩ s
          | .err e s => .err e s
          | .fault f => .fault f
        else .err (.parseError "content data"
          (BitVec.ofNat 32 ((word hs ++ (word hc ++ d1)).length - d2.length)) (.insufficientData
          (i32OfNat (env.usizeOfI32 cs)) (i32OfNat d2.length)))
          (at_ (word hs ++ (word hc ++ d1)).length d2)
      else .err (.parseError "header data"
        (BitVec.ofNat 32 ((word hs ++ (word hc ++ d1)).length - d1.length)) (.insufficientData
        (i32OfNat (env.usizeOfI32 hs)) (i32OfNat d1.length)))
        (at_ (word hs ++ (word hc ++ d1)).length d1) := by
  rw [init_at]
  generalize hTT : (word hs ++ (word hc ++ d1)).length = T at hT
  have l1 : d1.length ≤ T := by
    rw [← hTT, List.length_append, List.length_append]; omega
  have l2 : (word cs ++ (word cc ++ d2)).length ≤ T := by
    rw [e1, List.length_append] at l1; omega
  have l3 : d2.length ≤ T := by
    rw [List.length_append, List.length_append] at l2; omega
  unfold front
  simp only [bind, P.bind]
  rw [section_run _ _ _ _ _ _ _ _ hT (Nat.le_of_eq hTT)]
  by_cases c1 : env.usizeOfI32 hs ≤ d1.length
  · rw [if_pos c1, if_pos c1]
    simp only [bind, P.bind]
    rw [show at_ T d1 = at_ T (b1 ++ (word cs ++ (word cc ++ d2))) by rw [e1],
      step (fun N => parseHeader_spec) h1 hT (by rw [← e1]; exact l1)]
    simp only [pure, P.pure]
    rw [section_run _ _ _ _ _ _ _ _ hT l2]
    by_cases c2 : env.usizeOfI32 cs ≤ d2.length
    · rw [if_pos c2, if_pos c2]
      simp only [bind, P.bind, pure, P.pure]
      subst e2
      rw [body_run h2 h3 hw hT l3, bodyTail_any]
      cases bodyTail levels keyframes [] env (at_ T suf) <;> rfl
    · rw [if_neg c2, if_neg c2]
  · rw [if_neg c1, if_neg c1]

/-- The two runs up to the network step: the same error, or the same sections but for the network
data. -/
theorem front_same {pre net net' suf : Bytes} (h : UpToNetwork net.length pre)
    (hl : net'.length = net.length) (hs : Room env (pre ++ (net ++ suf)).length) :
    (∃ e s s', front .never env (CoreSt.init (pre ++ (net ++ suf))) = .err e s ∧
      front .never env (CoreSt.init (pre ++ (net' ++ suf))) = .err e s') ∨
    (∃ f, front .never env (CoreSt.init (pre ++ (net ++ suf))) = .fault f ∧
      front .never env (CoreSt.init (pre ++ (net' ++ suf))) = .fault f) ∨
    ∃ x s, x.body.networkData = net ∧
      front .never env (CoreSt.init (pre ++ (net ++ suf))) = .ok x s ∧
      front .never env (CoreSt.init (pre ++ (net' ++ suf))) =
        .ok { x with body := { x.body with networkData := net' } } s := by
  obtain ⟨hsz, hc, cs, cc, hd, levels, keyframes, b1, b2, b3, hn, h1, h2, h3, rfl⟩ := h
  have key : ∀ w : Bytes, w.length = net.length → _ := fun w hw =>
    @front_run env hsz hc cs cc hd levels keyframes b1 b2 b3 w suf _ _ h1 h2 h3 (by omega) rfl rfl
      (hs.mono (by simp only [List.length_append, hw]; omega))
  have e : ∀ w : Bytes, w.length = net.length → word hsz ++ (word hc ++ (b1 ++ (word cs ++
      (word cc ++ (b2 ++ (b3 ++ word (BitVec.ofNat 32 net.length))))))) ++ (w ++ suf) =
      word hsz ++ (word hc ++ (b1 ++ (word cs ++ (word cc ++
        (b2 ++ (b3 ++ (word (BitVec.ofNat 32 w.length) ++ w ++ suf))))))) := by
    intro w hw
    rw [hw]
    simp only [List.append_assoc]
  rw [e net rfl, e net' hl, key net rfl, key net' hl]
  have l0 : (word (BitVec.ofNat 32 net'.length) ++ net' ++ suf).length =
      (word (BitVec.ofNat 32 net.length) ++ net ++ suf).length := by
    simp only [List.length_append, hl]
  have l2 : (b2 ++ (b3 ++ (word (BitVec.ofNat 32 net'.length) ++ net' ++ suf))).length =
      (b2 ++ (b3 ++ (word (BitVec.ofNat 32 net.length) ++ net ++ suf))).length := by
    simp only [List.length_append, hl]
  have l1 : (b1 ++ (word cs ++ (word cc ++
      (b2 ++ (b3 ++ (word (BitVec.ofNat 32 net'.length) ++ net' ++ suf)))))).length =
      (b1 ++ (word cs ++ (word cc ++
      (b2 ++ (b3 ++ (word (BitVec.ofNat 32 net.length) ++ net ++ suf)))))).length := by
    simp only [List.length_append, hl]
  have lt : (word hsz ++ (word hc ++ (b1 ++ (word cs ++ (word cc ++
      (b2 ++ (b3 ++ (word (BitVec.ofNat 32 net'.length) ++ net' ++ suf)))))))).length =
      (word hsz ++ (word hc ++ (b1 ++ (word cs ++ (word cc ++
      (b2 ++ (b3 ++ (word (BitVec.ofNat 32 net.length) ++ net ++ suf)))))))).length := by
    simp only [List.length_append, hl]
  rw [lt, l1, l2]
  split
  · split
    · cases bodyTail levels keyframes [] env _ with
      | ok b s => exact .inr (.inr ⟨_, s, rfl, rfl, rfl⟩)
      | err e s => exact .inl ⟨e, s, s, rfl, rfl⟩
      | fault f => exact .inr (.inl ⟨f, rfl, rfl⟩)
    · exact .inl ⟨_, _, _, rfl, rfl⟩
  · exact .inl ⟨_, _, _, rfl, rfl⟩

/-- C76. With `never_parse_network_data` the content of the network data is not looked at: if it
is replaced by as many other bytes, the outcome is the same, error or replay.  The file may be
any that is well formed up to the network data. -/
theorem network_unread {pre net net' suf : Bytes} (h : UpToNetwork net.length pre)
    (hl : net'.length = net.length) (hs : Room env (pre ++ (net ++ suf)).length) :
    parseWith .never .never env (pre ++ (net' ++ suf)) =
      parseWith .never .never env (pre ++ (net ++ suf)) := by
  rw [parseWith_eq, parseWith_eq]
  obtain ⟨e, s, s', e1, e2⟩ | ⟨f, e1, e2⟩ | ⟨x, s, -, e1, e2⟩ := front_same (env := env) h hl hs
  · rw [e1, e2]
  · rw [e1, e2]
  · rw [e1, e2]
    rfl

/-- A file with the network data replaced is accepted or rejected with the same error, whether the
network data can be decoded or not. -/
theorem network_ignored {pre net net' suf : Bytes} (h : UpToNetwork net.length pre)
    (hl : net'.length = net.length) (hs : Small env (pre ++ (net ++ suf))) :
    (∃ e, parseWith .never .ignoreOnError env (pre ++ (net ++ suf)) = .err e ∧
      parseWith .never .ignoreOnError env (pre ++ (net' ++ suf)) = .err e) ∨
    ∃ r fs, parseWith .never .ignoreOnError env (pre ++ (net ++ suf)) = .ok r ∧
      parseWith .never .ignoreOnError env (pre ++ (net' ++ suf)) =
        .ok { r with networkFrames := fs } := by
  have hs' : Small env (pre ++ (net' ++ suf)) := by
    unfold Small at hs ⊢
    simp only [List.length_append, hl] at hs ⊢
    exact hs
  have n1 := fun f => no_panic .never .ignoreOnError env _ hs f
  have n2 := fun f => no_panic .never .ignoreOnError env _ hs' f
  rw [parseWith_eq] at n1 n2 ⊢
  rw [parseWith_eq]
  obtain ⟨e, s, s', e1, e2⟩ | ⟨f, e1, e2⟩ | ⟨x, s, -, e1, e2⟩ := front_same (env := env) h hl hs.1
  · rw [e1, e2]
    exact .inl ⟨e, rfl, rfl⟩
  · rw [e1] at n1
    exact (n1 f rfl).elim
  · rw [e1] at n1
    rw [e2] at n2
    rw [e1, e2]
    simp only [networkStep] at n1 n2 ⊢
    refine .inr ?_
    cases h1 : Network.parse env x.header x.body with
    | fault f => rw [h1] at n1; exact (n1 f rfl).elim
    | ok a =>
      cases h2 : Network.parse env x.header { x.body with networkData := net' } with
      | fault f => rw [h2] at n2; exact (n2 f rfl).elim
      | ok b => exact ⟨_, some b, rfl, rfl⟩
      | err e => exact ⟨_, none, rfl, rfl⟩
    | err a =>
      cases h2 : Network.parse env x.header { x.body with networkData := net' } with
      | fault f => rw [h2] at n2; exact (n2 f rfl).elim
      | ok b => exact ⟨_, some b, rfl, rfl⟩
      | err e => exact ⟨_, none, rfl, rfl⟩

/-- What verifying checksums can change about an outcome. -/
inductive Verified {α : Type} (o : Res ParseError α) : CrcCheck → Res ParseError α → Prop where
  | same {check} : Verified o check o
  | mismatch {c a} : Verified o .always (.err (.crcMismatch c a))
  | corrupt {sec e} : o = .err e → Verified o .onError (.err (.corruptReplay sec e))

/-- The same for a step of the parser. -/
def VerifiedP {α : Type} (check : CrcCheck) (m m' : P α) : Prop :=
  ∀ env s, m' env s = m env s ∨
    (check = .always ∧ ∃ c a s', m' env s = .err (.crcMismatch c a) s') ∨
    (check = .onError ∧ ∃ sec e s1 s', m env s = .err e s1 ∧ m' env s = .err (.corruptReplay sec e) s')

theorem verified_refl {α : Type} {check : CrcCheck} (m : P α) : VerifiedP check m m :=
  fun _ _ => .inl rfl

theorem verified_bind {α β : Type} {check : CrcCheck} {m m' : P α} {f f' : α → P β}
    (h : VerifiedP check m m') (hf : ∀ a, VerifiedP check (f a) (f' a)) :
    VerifiedP check (m >>= f) (m' >>= f') := by
  intro env s
  simp only [bind, P.bind]
  obtain h1 | ⟨hc, c, a, s', h1⟩ | ⟨hc, sec, e, s1, s', h1, h2⟩ := h env s
  · rw [h1]
    cases m env s with
    | ok a s1 => exact hf a env s1
    | err e s1 => exact .inl rfl
    | fault f => exact .inl rfl
  · rw [h1]
    exact .inr (.inl ⟨hc, c, a, s', rfl⟩)
  · rw [h1, h2]
    exact .inr (.inr ⟨hc, sec, e, s1, s', rfl, rfl⟩)

theorem crcSection_verified {α : Type} (check : CrcCheck) (data : Bytes) (crc : BitVec 32)
    (sec : String) (m : P α) :
    VerifiedP check (crcSection .never data crc sec m) (crcSection check data crc sec m) := by
  intro env s
  unfold crcSection
  cases m env s with
  | fault f => exact .inl rfl
  | ok a s' =>
    cases check with
    | never => exact .inl rfl
    | onError => exact .inl rfl
    | always =>
      simp only
      by_cases hc : Crc.calcCrc data ≠ crc
      · rw [if_pos hc]; exact .inr (.inl ⟨trivial, _, _, _, rfl⟩)
      · rw [if_neg hc]; exact .inl rfl
  | err e s' =>
    cases check with
    | never => exact .inl rfl
    | onError =>
      simp only
      by_cases hc : Crc.calcCrc data ≠ crc
      · rw [if_pos hc]; exact .inr (.inr ⟨trivial, _, _, _, _, rfl, rfl⟩)
      · rw [if_neg hc]; exact .inl rfl
    | always =>
      simp only
      by_cases hc : Crc.calcCrc data ≠ crc
      · rw [if_pos hc]; exact .inr (.inl ⟨trivial, _, _, _, rfl⟩)
      · rw [if_neg hc]; exact .inl rfl

theorem section_verified {α : Type} (check : CrcCheck) (n1 n2 n3 n4 : String) (m : P α) :
    VerifiedP check (section_ .never n1 n2 n3 n4 m) (section_ check n1 n2 n3 n4 m) :=
  verified_bind (verified_refl _) fun _ => verified_bind (verified_refl _) fun _ =>
    verified_bind (verified_refl _) fun _ => verified_bind (verified_refl _) fun _ =>
    verified_bind (crcSection_verified check _ _ _ _) fun _ => verified_refl _

/-- Verifying checksums changes nothing but to answer with `CrcMismatch`, or to call the section
corrupt in which an error was found. -/
theorem verified (check : CrcCheck) (np : NetworkParse) (data : Bytes) :
    Verified (parseWith .never np env data) check (parseWith check np env data) := by
  have h : VerifiedP check (parserParse .never np) (parserParse check np) := by
    rw [parserParse_eq, parserParse_eq]
    exact verified_bind (verified_bind (section_verified check _ _ _ _ _) fun _ =>
      verified_bind (section_verified check _ _ _ _ _) fun _ => verified_refl _) fun _ => verified_refl _
  unfold parseWith ParserBuilder.parse
  simp only [Option.getD_some]
  obtain h1 | ⟨rfl, c, a, s', h1⟩ | ⟨rfl, sec, e, s1, s', h1, h2⟩ := h env (CoreSt.init data)
  · rw [h1]; exact .same
  · rw [h1]; exact .mismatch
  · rw [h1, h2]; exact .corrupt rfl

/-- C76. Under every checksum policy: if the network data is replaced by as many other bytes,
then at most a checksum can tell.  Both outcomes are what they would be without checksums, which
is the same for both, or a checksum error. -/
theorem network_unread_checked (check : CrcCheck) {pre net net' suf : Bytes}
    (h : UpToNetwork net.length pre) (hl : net'.length = net.length)
    (hs : Room env (pre ++ (net ++ suf)).length) :
    ∃ o, Verified o check (parseWith check .never env (pre ++ (net ++ suf))) ∧
      Verified o check (parseWith check .never env (pre ++ (net' ++ suf))) :=
  ⟨_, verified .., by rw [← network_unread h hl hs]; exact verified ..⟩

/-- C76. An accepted file has network data at such a place.  With every other network data of the
same length the file is accepted as well, unless checksums are always verified, and all that is
not network data is the same. -/
theorem network_replaced (check : CrcCheck) (hc : check ≠ .always) {data : Bytes}
    (hs : Small env data) {r : Replay} (hr : parseWith check .ignoreOnError env data = .ok r) :
    ∃ pre net suf, data = pre ++ (net ++ suf) ∧ UpToNetwork net.length pre ∧
      ∀ net' : Bytes, net'.length = net.length →
        ∃ fs, parseWith check .ignoreOnError env (pre ++ (net' ++ suf)) =
          .ok { r with networkFrames := fs } := by
  have hr' : parseWith .never .ignoreOnError env data = .ok r := by
    cases check with
    | always => exact (hc rfl).elim
    | never => exact hr
    | onError => exact (onError_ok_iff_never _ _ _ hs.len r).1 hr
  obtain ⟨x, rest, n, ⟨bh, bb, h1, ⟨b1, b2, b3, b4, b5, b6, b7, b8, b9, g1, g2, g3, -, -, -, -,
    -, -, -, rfl⟩, hd, -⟩, -⟩ := (parseWith_ok_iff .never _ env data hs.1 r).1 hr'
  have hup : UpToNetwork x.body.networkData.length (word x.headerSize ++ (word x.headerCrc ++
      (bh ++ (word x.contentSize ++ (word x.contentCrc ++ (b1 ++ (b2 ++
        word (BitVec.ofNat 32 x.body.networkData.length)))))))) :=
    ⟨_, _, _, _, _, _, _, _, _, _, g3, h1, g1, g2, rfl⟩
  have hd' : data = (word x.headerSize ++ (word x.headerCrc ++
      (bh ++ (word x.contentSize ++ (word x.contentCrc ++ (b1 ++ (b2 ++
        word (BitVec.ofNat 32 x.body.networkData.length)))))))) ++ (x.body.networkData ++
      (b3 ++ (b4 ++ (b5 ++ (b6 ++ (b7 ++ (b8 ++ (b9 ++ rest)))))))) := by
    rw [hd]
    simp only [List.append_assoc]
  generalize word x.headerSize ++ (word x.headerCrc ++
      (bh ++ (word x.contentSize ++ (word x.contentCrc ++ (b1 ++ (b2 ++
        word (BitVec.ofNat 32 x.body.networkData.length))))))) = pre at hup hd'
  generalize b3 ++ (b4 ++ (b5 ++ (b6 ++ (b7 ++ (b8 ++ (b9 ++ rest)))))) = suf at hd'
  subst hd'
  refine ⟨pre, _, suf, rfl, hup, fun net' hl => ?_⟩
  have hl' : (pre ++ (net' ++ suf)).length ≤ env.isizeMax := by
    have := hs.len
    simp only [List.length_append, hl] at this ⊢
    exact this
  obtain ⟨e, h2, _⟩ | ⟨r1, fs, h2, h3⟩ := network_ignored hup hl hs
  · rw [hr'] at h2; cases h2
  · rw [hr'] at h2
    cases h2
    refine ⟨fs, ?_⟩
    cases check with
    | always => exact (hc rfl).elim
    | never => exact h3
    | onError => exact (onError_ok_iff_never _ _ _ hl' _).2 h3

/-- The sample up to network data of three bytes. -/
def samplePre : Bytes := sample.take 78 ++ (word 0 ++ (word 0 ++ word 3))

theorem samplePre_up : UpToNetwork 3 samplePre :=
  ⟨62, 0xd007b860, 40, 0x13899af5, sampleHeader, [], [], sampleHeaderBytes, word 0, word 0,
    by decide, sample_headerSec, ⟨[], Nat.zero_le _, .nil, rfl⟩, ⟨[], Nat.zero_le _, .nil, rfl⟩,
    by decide +kernel⟩

/-- Whatever the three bytes are, the rest of the file is read; its checksum is not looked at, as
no error is found. -/
example (a b c : Byte) : ∃ r, parseWith .onError .never Env.default64
    (samplePre ++ ([a, b, c] ++ List.replicate 28 0)) = .ok r := by
  have h : ∃ r, parseWith .never .never Env.default64
      (samplePre ++ ([0, 0, 0] ++ List.replicate 28 0)) = .ok r := by
    have : (match parseWith .never .never Env.default64
      (samplePre ++ ([0, 0, 0] ++ List.replicate 28 0)) with
      | .ok _ => true | _ => false) = true := by decide +kernel
    revert this
    cases parseWith .never .never Env.default64 (samplePre ++ ([0, 0, 0] ++ List.replicate 28 0)) with
    | ok r => exact fun _ => ⟨r, rfl⟩
    | err | fault => exact fun h => (by cases h)
  obtain ⟨r, h⟩ := h
  refine ⟨r, (onError_ok_iff_never _ _ _ ?_ r).2 ?_⟩
  · refine (Room.of_lt ?_).1
    rw [List.length_append, show samplePre.length = 90 by decide +kernel]
    simp
  · rw [← h]
    exact network_unread samplePre_up rfl
      (Room.of_lt (Nat.lt_of_le_of_lt (m := 200) (by decide +kernel) (by decide)))

/-- A file cut off after the network data is rejected with the same error whatever that is. -/
example (a b c : Byte) : parseWith .never .never Env.default64
    (samplePre ++ ([a, b, c] ++ List.replicate 27 0)) =
      parseWith .never .never Env.default64 (samplePre ++ ([1, 2, 3] ++ List.replicate 27 0)) ∧
    ∃ e, parseWith .never .never Env.default64
      (samplePre ++ ([1, 2, 3] ++ List.replicate 27 0)) = .err e := by
  refine ⟨network_unread samplePre_up rfl
    (Room.of_lt (Nat.lt_of_le_of_lt (m := 200) (by decide +kernel) (by decide))), _,
    eq_of_failsWith (e := .parseError "net cache" 117 (.insufficientData 4 3)) (by decide +kernel)⟩

end Boxcars.Props
