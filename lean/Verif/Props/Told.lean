import Verif.Props.ErrorChain
import Verif.Props.AttrFail
import Verif.Spec.Told
import Verif.Props.Probe
import Verif.Spec.Encode
/-!
# C90: which errors are reported
-/
namespace Boxcars.Props
open Boxcars Spec

theorem textFail_told {e : AttributeError} {i : Bits} (h : TextFail e i) :
    e = .notEnoughDataFor "text string" ∨ ∃ n, e = .tooBigString n := by
  cases h with
  | count => exact .inl rfl
  | _ => exact .inr ⟨_, rfl⟩

/-- The errors that attribute values are answered with. -/
def AttrTold (e : AttributeError) : Prop :=
  (∃ s ∈ attributeNames, e = .notEnoughDataFor s) ∨ (∃ n, e = .tooBigString n) ∨
    ∃ s, e = .unrecognizedRemoteId s

theorem AttrTold.named {s : String} (h : s ∈ attributeNames) : AttrTold (.notEnoughDataFor s) :=
  .inl ⟨s, h, rfl⟩

theorem text_told {e : AttributeError} {i : Bits} (h : TextFail e i) : AttrTold e := by
  rcases textFail_told h with rfl | ⟨n, rfl⟩
  · exact .named (by decide)
  · exact .inr (.inl ⟨n, rfl⟩)

theorem remote_told {net s e i} (h : RemoteFail net s e i) : AttrTold e := by
  cases h with
  | epic h => exact text_told h
  | unknown => exact .inr (.inr ⟨_, rfl⟩)
  | _ => exact .named (by decide)

theorem id_told {net s e i} (h : IdFail net s e i) : AttrTold e := by
  cases h with
  | remote h => exact remote_told h
  | localId => exact .named (by decide)

theorem uniqueId_told {net e i} (h : UniqueIdFail net e i) : AttrTold e := by
  cases h with
  | system => exact .named (by decide)
  | id h => exact id_told h

theorem attr_told {c : Ctx} {tag e i} (h : AttrFails c tag e i) (hu : e ≠ .unimplemented) :
    AttrTold e := by
  cases h with
  | plain h =>
    refine .named ?_
    cases tag <;> simp only [plainName] at h <;> (try split at h) <;> cases h <;> decide
  | unimplemented => exact absurd rfl hu
  | string h => exact text_told h
  | qWordString _ h => exact text_told h
  | uniqueId h => exact uniqueId_told h
  | partyLeader h =>
    cases h with
    | system => exact .named (by decide)
    | id _ h => exact id_told h
  | reservation h =>
    cases h with
    | id _ h => exact uniqueId_told h
    | text _ _ _ h => exact text_told h
    | _ => exact .named (by decide)
  | privateMatch h =>
    cases h with
    | mutators h => exact text_told h
    | gameName _ _ h => exact text_told h
    | password _ _ _ h => exact text_told h
    | _ => exact .named (by decide)
  | repStatTitle h =>
    cases h with
    | name h => exact text_told h
    | _ => exact .named (by decide)
  | _ => exact .named (by decide)

theorem AttrTold.mem {e : AttributeError} (h : AttrTold e) : AttributeError.told e ∈ allTold := by
  rcases h with ⟨s, hs, rfl⟩ | ⟨n, rfl⟩ | ⟨s, rfl⟩
  · exact List.mem_append_right _ (List.mem_map_of_mem hs)
  · exact (by decide : Told.tooBigString ∈ allTold)
  · exact (by decide : Told.unrecognizedRemoteId ∈ allTold)

theorem inFrame_mem {s : String} (h : s ∈ frameNames) : Told.inFrame s ∈ allTold :=
  List.mem_append_left _ (List.mem_append_right _ (List.mem_map_of_mem h))

theorem part_mem {s : String} (h : s ∈ partNames) : Told.part s ∈ allTold :=
  List.mem_append_left _ (List.mem_append_left _ (List.mem_append_right _ (List.mem_map_of_mem h)))

theorem props_told {A : AttrRel} {c : Ctx} {d id obj us e i}
    (h : PropsFail A (AttrFails c) d id obj us e i) : FrameError.told e ∈ allTold := by
  induction h with
  | flag => exact inFrame_mem (by decide)
  | streamId => exact inFrame_mem (by decide)
  | undeclared => exact (by decide : Told.missingAttribute ∈ allTold)
  | unimplemented => exact (by decide : Told.missingAttribute ∈ allTold)
  | value _ _ h hu => exact (attr_told h hu).mem
  | next _ _ _ _ ih => exact ih

theorem event_told {n : Net} {A : AttrRel} {c : Ctx} {known us e i}
    (h : EventFail n A (AttrFails c) known us e i) : FrameError.told e ∈ allTold := by
  cases h with
  | actor => exact inFrame_mem (by decide)
  | isNew => exact inFrame_mem (by decide)
  | announce _ h =>
    cases h with
    | object => exact (by decide : Told.objectIdOutOfRange ∈ allTold)
    | _ => exact inFrame_mem (by decide)
  | classless => exact (by decide : Told.missingCache ∈ allTold)
  | unknown => exact (by decide : Told.missingActor ∈ allTold)
  | props _ _ _ h => exact props_told h

theorem events_told {n : Net} {A : AttrRel} {c : Ctx} {known es us e i}
    (h : EventsFail n A (AttrFails c) known es us e i) : FrameError.told e ∈ allTold := by
  induction h with
  | flag => exact inFrame_mem (by decide)
  | event h => exact event_told h
  | next _ _ _ ih => exact ih

theorem frame_told {n : Net} {A : AttrRel} {c : Ctx} {known es us e i}
    (h : FrameFail n A (AttrFails c) known es us e i) : FrameError.told e ∈ allTold := by
  cases h with
  | time => exact inFrame_mem (by decide)
  | timeRange => exact (by decide : Told.timeOutOfRange ∈ allTold)
  | delta => exact inFrame_mem (by decide)
  | deltaRange => exact (by decide : Told.deltaOutOfRange ∈ allTold)
  | records _ _ _ h => exact events_told h

theorem simple_told {e : ParseError} (h : Simple e) : ∀ t ∈ tells e, t ∈ allTold := by
  cases h <;> exact fun t ht => by cases List.mem_singleton.1 ht; decide

theorem located_told {e : ParseError} (h : Located e) : ∀ t ∈ tells e, t ∈ allTold := by
  cases h with
  | named hs h =>
    intro t ht
    rcases List.mem_cons.1 ht with rfl | ht
    · exact part_mem hs
    · exact simple_told h t ht
  | size hs =>
    intro t ht
    rcases List.mem_cons.1 ht with rfl | ht
    · exact part_mem (by decide)
    rcases List.mem_cons.1 ht with rfl | ht
    · exact part_mem (by rcases hs with rfl | rfl <;> decide)
    · exact simple_told (e := .insufficientData _ _) .short t ht

/-- C90. Nothing else is told about any file. -/
theorem told_known (check : CrcCheck) (np : NetworkParse) {env : Env} {data : List Byte}
    (hs : Small env data) {e : ParseError} (h : parseWith check np env data = .err e) :
    ∀ t ∈ tells e, t ∈ allTold := by
  cases answer_shape check np hs h with
  | located h => exact located_told h
  | corrupt hn hl =>
    intro t ht
    rcases List.mem_cons.1 ht with rfl | ht
    · rcases hn with rfl | rfl <;> decide
    · exact located_told hl t ht
  | mismatch => exact fun t ht => by cases List.mem_singleton.1 ht; decide
  | network =>
    intro t ht
    cases List.mem_singleton.1 ht
    obtain ⟨x, rest, h1, h2⟩ := network_error_source hs.1.1 h
    cases network_err_of h1 h2 with
    | index => exact (by decide : Told.streamTooLargeIndex ∈ allTold)
    | count => exact (by decide : Told.tooManyFrames ∈ allTold)
    | frame =>
      obtain ⟨_, _, _, _, _, _, _, _, _, _, _, h3, _⟩ := replay_failure_context hs.1.1 h
      exact frame_told h3

/-! ## Network data that is answered so -/

/-- Headers: net version 9 and 40 channels are needed for one name each. -/
def probeHeader : Fin 3 → Header
  | 0 => ⟨868, 20, some 10, "G".toList, [("NumFrames".toList, .int 1)]⟩
  | 1 => ⟨868, 20, some 9, "G".toList, [("NumFrames".toList, .int 1)]⟩
  | 2 => ⟨868, 20, some 10, "G".toList, [("NumFrames".toList, .int 1),
      ("MaxChannels".toList, .int 40)]⟩

theorem probeHeader_ok (k : Fin 3) : HeaderOk (probeHeader k) := by
  match k with
  | 0 | 1 | 2 =>
    refine ⟨by decide, by decide +kernel, ?_⟩
    simp only [probeHeader, isQuirks, PropsOk, PropOk, ValOk, StrOk]
    decide +kernel

/-- The decoder of attributes. -/
def probeDecoder (k : Fin 3) : AttrDecoder := attrDecoderOf (probeHeader k) (probeBody [] [] [])

theorem probe_ctx {name : Str} (hn : ∀ k ∈ productNames, name ≠ k.toList) (k : Fin 3)
    (blob : List Byte) : CtxOf (probeHeader k) (probeBody name [] blob) (probeDecoder k).ctx :=
  probe_ctxOf hn _ blob

/-- The number of actors. -/
def probeChannels (k : Fin 3) : Nat := if k = 2 then 40 else 1023

/-- What the class table says about the probes. -/
structure ProbeNet (k : Fin 3) (tag : AttributeTag) (n : Net) : Prop where
  channels : n.channels = probeChannels k
  named : n.named = true
  spawn : n.spawn 0 = some .none
  cls : n.cls 0 = some (probeClass tag)

set_option maxRecDepth 100000 in
theorem probe_version : ∀ k : Fin 3, 868 = (probeDecoder k).ctx.major.toInt ∧
    20 = (probeDecoder k).ctx.minor.toInt ∧ 0 ≤ (probeDecoder k).ctx.net.toInt := by decide +kernel

set_option maxRecDepth 100000 in
theorem probe_channels : ∀ k : Fin 3,
    ((headerInt (probeHeader k) "MaxChannels").getD 1023#32).toNat = probeChannels k := by
  decide +kernel

set_option maxRecDepth 100000 in
theorem probe_frames : ∀ k : Fin 3, headerInt (probeHeader k) "NumFrames" = some 1 := by
  decide +kernel

theorem probe_net {name : Str} {tag : AttributeTag}
    (ht : (attributeTag name).getD .notImplemented = tag) (k : Fin 3) (blob : List Byte) :
    ∃ n, NetOf (probeHeader k) (probeBody name [] blob) (probeDecoder k).ctx n ∧
      ProbeNet k tag n := by
  obtain ⟨n, hn⟩ := net_exists (probeHeader k) (probeBody name [] blob) (probeDecoder k).ctx
  obtain ⟨v1, v2, v3⟩ := probe_version k
  exact ⟨n, hn, hn.channels.trans (probe_channels k),
    hn.named.2 (.inl (.inr ⟨v1, .inr ⟨v2, v3⟩⟩)), (hn.spawn _ _).2 (probe_spawn _ _ _),
    (hn.cls _ _).2 (probe_class ht _ _)⟩

/-- A frame that fails before any record, or after one announcement, is reported. -/
theorem probe_reported (env : Env) {name : Str} {tag : AttributeTag} (k : Fin 3) {blob : List Byte}
    (hn : ∀ k ∈ productNames, name ≠ k.toList)
    (hne : blob ≠ []) (hlen : blob.length < 2 ^ 31)
    (hcap : blob.length * env.frameSize ≤ env.isizeMax)
    (ht : (attributeTag name).getD .notImplemented = tag) {us : List UpdatedAttribute}
    {e : FrameError} (hf : ∀ n,
      NetOf (probeHeader k) (probeBody name [] blob) (probeDecoder k).ctx n → ProbeNet k tag n → ∃ es, (es = [] ∨ ∃ a, es = [.new a]) ∧
      FrameFail n (AttrAccepts (probeDecoder k).ctx) (AttrFails (probeDecoder k).ctx) Known.none
        es us e (bytes blob)) :
    ∃ ctx, Network.parse env (probeHeader k) (probeBody name [] blob) = .err (.frameError e ctx) := by
  obtain ⟨n, h1, h2⟩ := probe_net ht k blob
  obtain ⟨es, hes, hf⟩ := hf n h1 h2
  have hb : bytes blob ≠ [] := by
    intro h0
    have := BSpec.bytes_length blob
    rw [h0] at this
    exact hne (List.eq_nil_of_length_eq_zero (by simpa using this.symm))
  have h1' : (1 : I32).toNat ≤ (probeBody name [] blob).networkData.length := by
    show 1 ≤ blob.length
    exact List.length_pos_iff.2 hne
  have fin := fun ctx (hc : ContextOf n (probeBody name [] blob).objects [] Known.none es us ctx)
      (ho : ctx.objectAttributes = tableOf (probeBody name [] blob)) =>
    (network_err_iff env (probeHeader k) (probeBody name [] blob)
      (show (2 : Nat) ≤ 2 ^ 31 by decide) hlen hcap _).2
      (.frame (probe_range _ _ _) (probe_frames k) (by decide) h1' (probe_ctx hn k blob) h1
        (.here hb hf) hc ho)
  obtain ⟨T, hT⟩ : ∃ T, T = tableOf (probeBody name [] blob) := ⟨_, rfl⟩
  rcases hes with rfl | ⟨a, rfl⟩
  · exact ⟨_, fin ⟨(probeBody name [] blob).objects, T, [], [], [], us⟩ ⟨rfl, rfl, rfl, rfl, .nil, fun id obj => by
      simp [Known.afterAll, Known.none]⟩ hT⟩
  · refine ⟨_, fin ⟨(probeBody name [] blob).objects, T, [],
      [(a.actorId, a.objectId)], [a], us⟩ ⟨rfl, rfl, rfl, rfl,
      List.pairwise_singleton _ _, fun id obj => ?_⟩ hT⟩
    show _ ↔ (if id = a.actorId then some a.objectId else none) = some obj
    by_cases h : id = a.actorId
    · rw [if_pos h, List.mem_singleton, Prod.mk.injEq, Option.some.injEq]
      exact ⟨fun e => e.2.symm, fun e => ⟨h, e.symm⟩⟩
    · rw [if_neg h, List.mem_singleton, Prod.mk.injEq]
      exact ⟨fun e => absurd e.1 h, fun e => absurd e (by simp)⟩

def one : F32 := 0x3f800000

theorem one_ok : TimeOk one ∧ ¬(IsZero one ∧ IsZero one) :=
  ⟨(outOfRange_iff _).1 (by decide +kernel), fun h => absurd h.1.1 (by decide +kernel)⟩

/-- The announcement of an actor. -/
def probeNew : NewActor := ⟨0, some 0, 0, ⟨none, none⟩⟩

/-- An announcement, and an update of the actor as far as its first bit. -/
def probeBits (n : Net) (i : Bits) : Bits :=
  Spec.field 32 one ++ (Spec.field 32 one ++ (true :: (actorId n 0 ++ (true :: true ::
    (Spec.field 32 (0 : I32) ++ ([false] ++ (Spec.field 32 (0 : ObjectId) ++ ([] ++ (true :: (actorId n 0 ++
      (true :: false :: i)))))))))))

theorem probe_records {k : Fin 3} {tag : AttributeTag} {n : Net} (hn : ProbeNet k tag n)
    {A : AttrRel} {X : AttrFail} {us : List UpdatedAttribute} {e : FrameError} {i : Bits}
    (h : PropsFail A X (probeClass tag) 0 0 us e i) :
    FrameFail n A X Known.none [.new probeNew] us e (probeBits n i) := by
  have hl : n.channels.log2 + 2 ≤ (actorId n 0).length + 2 := by
    unfold actorId bounded
    rw [List.length_append, bits_length]
    omega
  have hi : InChannels n 0 := by
    unfold InChannels
    exact Nat.lt_of_lt_of_le (by decide : (0 : ActorId).toNat < 1) (Nat.le_max_right _ _)
  refine .records one_ok.1 one_ok.1 one_ok.2 (.next ?_ (.new hi
    ⟨_, false, .none, [], .inl ⟨hn.named, 0, rfl, rfl⟩, hn.spawn, ⟨rfl, rfl⟩, rfl⟩ hn.cls)
    (.event (.props ⟨?_, hi, rfl⟩ rfl hn.cls h)))
  · simp only [List.length_append, List.length_cons]; omega
  · simp only [List.length_append, List.length_cons]; omega

/-- As bytes. -/
def probeStart : List Byte :=
  [0, 0, 128, 63, 0, 0, 128, 63, 1, 24, 0, 0, 0, 0, 0, 0, 0, 64, 0, 10]

theorem bytes_append (a b : List Byte) : bytes (a ++ b) = bytes a ++ bytes b := by
  unfold bytes; rw [List.flatMap_append]

set_option maxRecDepth 100000 in
theorem probe_bits {k : Fin 3} (hk : k ≠ 2) {tag : AttributeTag} {n : Net} (hn : ProbeNet k tag n)
    (extra : List Byte) :
    bytes (probeStart ++ extra) = probeBits n (true :: (bounded 9 0 ++ bytes extra)) := by
  have hc : n.channels = 1023 := by rw [hn.channels]; unfold probeChannels; rw [if_neg hk]
  have h1 : bytes probeStart = Spec.field 32 one ++ (Spec.field 32 one ++ (true :: (bounded 1023 0 ++
      (true :: true :: (Spec.field 32 (0 : I32) ++ ([false] ++ (Spec.field 32 (0 : ObjectId) ++ ([] ++
        (true :: (bounded 1023 0 ++ (true :: false :: true :: bounded 9 0))))))))))) := by
    decide +kernel
  rw [bytes_append, h1]
  unfold probeBits actorId
  rw [hc]
  simp only [List.append_assoc, List.cons_append, List.nil_append]
  rfl

theorem probe_stream {tag : AttributeTag} (i : Bits) :
    StreamIdAt (probeClass tag) 0 (bounded 9 0 ++ i) i := by
  refine ⟨(by decide : (0 : Int) ≤ 9), ?_, (by decide : (0 : StreamId).toNat < max (9 : Int).toNat 1), rfl⟩
  show (9 : Int).toNat.log2 + 1 ≤ _
  rw [List.length_append]
  have : (bounded 9 0).length = 4 := by decide
  have : (9 : Int).toNat.log2 = 3 := by decide
  omega

/-- An attribute value that is answered with an error. -/
theorem attr_reported (env : Env) (k : Fin 3) (hk : k ≠ 2) {tag : AttributeTag} {e : AttributeError}
    {extra : List Byte} (htag : tag ≠ .notImplemented)
    (he : AttrFails (probeDecoder k).ctx tag e (bytes extra))
    (hl : (probeStart ++ extra).length < 2 ^ 31)
    (hcap : (probeStart ++ extra).length * env.frameSize ≤ env.isizeMax) :
    ∃ name ctx, name.length ≤ 59 ∧ Network.parse env (probeHeader k)
      (probeBody name [] (probeStart ++ extra)) = .err (.frameError (.attributeError 0 0 0 e) ctx) := by
  obtain ⟨name, hm⟩ := tag_listed htag
  have hu : e ≠ .unimplemented := by
    rintro rfl
    exact htag (((attrErrors _).unimplemented _ _).1 he)
  obtain ⟨ctx, h⟩ := probe_reported env (tag := tag) (us := []) (e := .attributeError 0 0 0 e) k
    (listed_ne hm) (by simp [probeStart]) hl hcap (by rw [attributeTag_of_mem hm]; rfl)
    (fun n _ hn => ⟨_, .inr ⟨_, rfl⟩, by
      rw [probe_bits hk hn]
      exact probe_records hn (.value (ob := 1) (probe_stream _) (by rfl) he hu)⟩)
  exact ⟨_, ctx, attribute_short hm, h⟩

/-- What is told about an attribute value, its type, the header and the bytes of the value. -/
abbrev AttrProbe := Told × AttributeTag × Fin 3 × List Byte

def attrProbes : List AttrProbe :=
  [(.inAttribute "Boolean", .boolean, 0, []), (.inAttribute "Byte", .byte, 0, []),
   (.inAttribute "Applied Damage", .appliedDamage, 0, []),
   (.inAttribute "Damage State", .damageState, 0, []),
   (.inAttribute "Cam Settings", .camSettings, 0, []),
   (.inAttribute "Club Colors", .clubColors, 0, []), (.inAttribute "Demolish", .demolish, 0, []),
   (.inAttribute "DemolishExtended", .demolishExtended, 0, []),
   (.inAttribute "DemolishFx", .demolishFx, 0, []), (.inAttribute "Enum", .enum, 0, []),
   (.inAttribute "Explosion", .explosion, 0, []),
   (.inAttribute "Extended Explosion", .extendedExplosion, 0, []),
   (.inAttribute "FlaggedByte", .flaggedByte, 0, []),
   (.inAttribute "Active Actor", .activeActor, 0, []), (.inAttribute "Float", .float, 0, []),
   (.inAttribute "Game Mode", .gameMode, 0, []), (.inAttribute "Int", .int, 0, []),
   (.inAttribute "Int64", .int64, 0, []), (.inAttribute "Loadout", .loadout, 0, []),
   (.inAttribute "Team Loadout", .teamLoadout, 0, []), (.inAttribute "Location", .location, 0, []),
   (.inAttribute "Music Stinger", .musicStinger, 0, []),
   (.inAttribute "PlayerHistoryKey", .playerHistoryKey, 0, []),
   (.inAttribute "Pickup", .pickup, 0, []), (.inAttribute "PickupNew", .pickupNew, 0, []),
   (.inAttribute "QWord", .qWordString, 0, []), (.inAttribute "Welded", .welded, 0, []),
   (.inAttribute "Title", .title, 0, []), (.inAttribute "Team Paint", .teamPaint, 0, []),
   (.inAttribute "Stat Event", .statEvent, 0, []), (.inAttribute "Rotation", .rotationTag, 0, []),
   (.inAttribute "Pickup Info", .pickupInfo, 0, []), (.inAttribute "Impulse", .impulse, 0, []),
   (.inAttribute "ReplicatedBoost", .replicatedBoost, 0, []),
   (.inAttribute "LogoData", .logoData, 0, []), (.inAttribute "Rigid Body", .rigidBody, 0, []),
   (.inAttribute "text string", .string, 0, []), (.inAttribute "System id", .uniqueId, 0, []),
   (.inAttribute "SplitScreen", .uniqueId, 0, [0]), (.inAttribute "Steam", .uniqueId, 0, [1]),
   (.inAttribute "PS4 Name", .uniqueId, 0, [2]),
   (.inAttribute "PS4 Unknown", .uniqueId, 0, [2, 0, 0, 0, 0, 0, 0, 0, 0, 0, 0, 0, 0, 0, 0, 0, 0]),
   (.inAttribute "PS4 ID", .uniqueId, 0, [2, 0, 0, 0, 0, 0, 0, 0, 0, 0, 0, 0, 0, 0, 0, 0, 0, 0, 0,
    0, 0, 0, 0, 0, 0, 0, 0, 0, 0, 0, 0, 0, 0]), (.inAttribute "Xbox", .uniqueId, 0, [4]),
   (.inAttribute "QQ ID", .uniqueId, 0, [5]), (.inAttribute "Switch ID", .uniqueId, 0, [6]),
   (.inAttribute "Switch ID Unknown", .uniqueId, 0, [6, 0, 0, 0, 0, 0, 0, 0, 0]),
   (.inAttribute "PsyNet ID", .uniqueId, 0, [7]),
   (.inAttribute "PsyNet ID Unknown", .uniqueId, 1, [7, 0, 0, 0, 0, 0, 0, 0, 0]),
   (.inAttribute "UniqueId local_id", .uniqueId, 0, [1, 0, 0, 0, 0, 0, 0, 0, 0]),
   (.inAttribute "Party Leader", .partyLeader, 0, []),
   (.inAttribute "Reservation", .reservation, 0, []),
   (.inAttribute "Private Match", .privateMatchSettings, 0, [0, 0, 0, 0]),
   (.inAttribute "RepStatTitle", .repStatTitle, 0, []),
   (.inAttribute "Loadout Online", .loadoutOnline, 0, []),
   (.inAttribute "Loadouts online", .loadoutsOnline, 0, []),
   (.unrecognizedRemoteId, .uniqueId, 0, [3]), (.tooBigString, .string, 0, [208, 7, 0, 0])]

def attrProbeOk (p : AttrProbe) : Bool :=
  match (probeDecoder p.2.2.1).decode p.2.1 Env.default64 (Reader.new p.2.2.2) with
  | .err e _ => decide (AttributeError.told e = p.1 ∧ p.2.1 ≠ .notImplemented ∧ p.2.2.1 ≠ 2 ∧
      p.2.2.2.length ≤ 100)
  | _ => false

set_option maxRecDepth 100000 in
theorem attrProbes_ok : attrProbes.all attrProbeOk = true := by decide +kernel

/-- Some file is answered so. -/
def Reported (t : Told) : Prop := ∃ check data e, Small Env.default64 data ∧
  parseWith check .always Env.default64 data = .err e ∧ t ∈ tells e

set_option maxRecDepth 100000 in
theorem probeHeader_length : ∀ k : Fin 3, (encHeader (probeHeader k)).length ≤ 200 := by
  decide +kernel

theorem network_reported (k : Fin 3) {name : Str} (hn : name.length ≤ 4999) {blob : List Byte}
    (hb : blob.length ≤ 1000) {e : NetworkError}
    (h : Network.parse Env.default64 (probeHeader k) (probeBody name [] blob) = .err e) :
    Reported (NetworkError.told e) := by
  have hl := probeFile_length (probeHeader k) hn blob
  have hh := probeHeader_length k
  have hlt : (encFile (probeHeader k) (probeBody name [] blob)).length < 2 ^ 31 := by omega
  refine ⟨.never, _, _, small64 rfl hlt, file_network_error .never _ (probeHeader k) _
    (probeHeader_ok k) (probeBody_ok (textOk_short hn) ⟨by decide, by simp⟩ (by decide) (by omega))
    hlt (small64 rfl hlt).1.1 h, List.mem_singleton.2 rfl⟩

theorem cap_ok {n : Nat} (h : n ≤ 1000) :
    n * Env.default64.frameSize ≤ Env.default64.isizeMax := by
  have h1 : (1000 : Nat) * Env.default64.frameSize ≤ Env.default64.isizeMax := by decide
  exact Nat.le_trans (Nat.mul_le_mul_right _ h) h1

theorem attrProbes_reported {p : AttrProbe} (hp : p ∈ attrProbes) : Reported p.1 := by
  have h := List.all_eq_true.1 attrProbes_ok p hp
  unfold attrProbeOk at h
  split at h
  · rename_i e r he
    obtain ⟨h1, h2, h3, h4⟩ := of_decide_eq_true h
    have hf := (attr_error_iff _ rfl Env.default64 _ _ (FrameDecoder.reader_new_valid _) e).1 ⟨_, he⟩
    rw [bytes_new] at hf
    have hl : (probeStart ++ p.2.2.2).length ≤ 1000 := by
      rw [List.length_append, show probeStart.length = 20 from rfl]; omega
    obtain ⟨name, ctx, hn, hr⟩ := attr_reported Env.default64 _ h3 h2 hf (by omega) (cap_ok hl)
    rw [← h1]
    exact network_reported _ (Nat.le_trans hn (by decide)) hl hr
  · cases h

set_option maxRecDepth 100000 in
theorem unnamed_tag : (attributeTag []).getD .notImplemented = .notImplemented := by decide +kernel

/-- A frame that is answered with an error. -/
theorem frame_reported (k : Fin 3) (blob : List Byte) (hb : blob ≠ [] ∧ blob.length ≤ 1000)
    {us : List UpdatedAttribute} {e : FrameError} (hf : ∀ n,
      NetOf (probeHeader k) (probeBody [] [] blob) (probeDecoder k).ctx n →
      ProbeNet k .notImplemented n → ∃ es, (es = [] ∨ ∃ a, es = [.new a]) ∧
      FrameFail n (AttrAccepts (probeDecoder k).ctx) (AttrFails (probeDecoder k).ctx) Known.none
        es us e (bytes blob)) : Reported (FrameError.told e) := by
  obtain ⟨ctx, h⟩ := probe_reported Env.default64 k productNames_ne hb.1 (by omega) (cap_ok hb.2)
    unnamed_tag hf
  exact network_reported k (by decide) hb.2 h

/-- Updates of an attribute that are answered with an error. -/
theorem props_reported {tag : AttributeTag} (htag : tag ≠ .notImplemented) (extra : List Byte)
    (hl : extra.length ≤ 100) {us : List UpdatedAttribute} {e : FrameError}
    (hf : PropsFail (AttrAccepts (probeDecoder 0).ctx) (AttrFails (probeDecoder 0).ctx)
      (probeClass tag) 0 0 us e (true :: (bounded 9 0 ++ bytes extra))) :
    Reported (FrameError.told e) := by
  obtain ⟨name, hm⟩ := tag_listed htag
  have hl : (probeStart ++ extra).length ≤ 1000 := by
    rw [List.length_append, show probeStart.length = 20 from rfl]; omega
  obtain ⟨ctx, h⟩ := probe_reported Env.default64 (tag := tag) 0 (blob := probeStart ++ extra)
    (listed_ne hm) (by simp [probeStart]) (by omega) (cap_ok hl)
    (by rw [attributeTag_of_mem hm]; rfl)
    (fun n _ hn => ⟨_, .inr ⟨_, rfl⟩, by
      rw [probe_bits (by decide) hn]
      exact probe_records hn hf⟩)
  exact network_reported 0 (Nat.le_trans (attribute_short hm) (by decide)) hl h

theorem time_reported : Reported (.inFrame "Time") :=
  frame_reported (us := []) (e := .notEnoughDataFor "Time") 0 [0] (by decide)
    fun _ _ _ => ⟨_, .inl rfl, .time (by decide)⟩

theorem delta_reported : Reported (.inFrame "Delta") :=
  frame_reported (us := []) (e := .notEnoughDataFor "Delta") 0 [0, 0, 128, 63, 0] (by decide)
    fun _ _ _ => ⟨_, .inl rfl, by
      rw [show bytes [0, 0, 128, 63, 0] = Spec.field 32 one ++ bytes [0] by decide +kernel]
      exact .delta one_ok.1 (by decide)⟩

theorem small_bad : ¬TimeOk 1 := by
  rw [← outOfRange_iff]; decide +kernel

theorem timeRange_reported : Reported .timeOutOfRange :=
  frame_reported (us := []) (e := .timeOutOfRange 1) 0 [1, 0, 0, 0] (by decide)
    fun _ _ _ => ⟨_, .inl rfl, by
      rw [show bytes [1, 0, 0, 0] = Spec.field 32 (1 : F32) ++ [] by decide +kernel]
      exact .timeRange small_bad⟩

theorem deltaRange_reported : Reported .deltaOutOfRange :=
  frame_reported (us := []) (e := .deltaOutOfRange 1) 0 [0, 0, 128, 63, 1, 0, 0, 0] (by decide)
    fun _ _ _ => ⟨_, .inl rfl, by
      rw [show bytes [0, 0, 128, 63, 1, 0, 0, 0] =
        Spec.field 32 one ++ (Spec.field 32 (1 : F32) ++ []) by decide +kernel]
      exact .deltaRange one_ok.1 small_bad⟩

/-- A frame with a first record that is answered with an error. -/
theorem records_reported (k : Fin 3) (blob : List Byte) (hb : blob.length ≤ 100)
    {e : FrameError} (hf : ∀ n,
      NetOf (probeHeader k) (probeBody [] [] ([0, 0, 128, 63, 0, 0, 128, 63] ++ blob))
        (probeDecoder k).ctx n →
      ProbeNet k .notImplemented n →
      EventsFail n (AttrAccepts (probeDecoder k).ctx) (AttrFails (probeDecoder k).ctx) Known.none
        [] [] e (bytes blob)) : Reported (FrameError.told e) := by
  refine frame_reported (us := []) k ([0, 0, 128, 63, 0, 0, 128, 63] ++ blob)
    ⟨by simp, by rw [List.length_append]; simp; omega⟩ fun n h1 h2 => ⟨[], .inl rfl, ?_⟩
  rw [bytes_append, show bytes [0, 0, 128, 63, 0, 0, 128, 63] =
    Spec.field 32 one ++ Spec.field 32 one by decide +kernel, List.append_assoc]
  exact .records one_ok.1 one_ok.1 one_ok.2 (hf n h1 h2)

theorem actorData_reported : Reported (.inFrame "Actor data") :=
  records_reported (e := .notEnoughDataFor "Actor data") 0 [] (by decide) fun _ _ _ => .flag

theorem actorId_reported : Reported (.inFrame "Actor Id") :=
  records_reported (e := .notEnoughDataFor "Actor Id") 0 [1] (by decide) fun n _ hn => by
    rw [show bytes [1] = true :: List.replicate 7 false by decide +kernel]
    refine .event (.actor ?_)
    rw [hn.channels]
    decide

/-- Actor 0 can be read. -/
theorem probe_actor {k : Fin 3} {n : Net} (hn : ProbeNet k .notImplemented n) {i j : Bits}
    (hl : (probeChannels k).log2 + 2 ≤ i.length) (h : i = bounded (probeChannels k) 0 ++ j) :
    ActorIdAt n 0 i j := by
  refine ⟨by rw [hn.channels]; exact hl, ?_, ?_⟩
  · unfold InChannels
    exact Nat.lt_of_lt_of_le (by decide : (0 : ActorId).toNat < 1) (Nat.le_max_right _ _)
  · unfold actorId; rw [hn.channels]; exact h

theorem isNew_reported : Reported (.inFrame "Is new actor") :=
  records_reported (e := .notEnoughDataFor "Is new actor") 2 [129] (by decide) fun n _ hn => by
    rw [show bytes [129] = true :: (bounded (probeChannels 2) 0 ++ [true]) by decide +kernel]
    exact .event (.isNew (probe_actor hn (by decide) rfl))

theorem newActor_reported : Reported (.inFrame "New Actor") :=
  records_reported (e := .notEnoughDataFor "New Actor") 0 [1, 24] (by decide) fun n _ hn => by
    rw [show bytes [1, 24] = true :: (bounded (probeChannels 0) 0 ++
      (true :: true :: List.replicate 3 false)) by decide +kernel]
    refine .event (.announce (probe_actor hn (by decide) rfl) (.short ?_))
    rw [hn.named]
    decide

theorem objectId_reported : Reported .objectIdOutOfRange :=
  records_reported (e := .objectIdOutOfRange 1000) 0 [1, 24, 0, 0, 0, 0, 250, 0, 0, 0] (by decide)
    fun n h hn => by
      rw [show bytes [1, 24, 0, 0, 0, 0, 250, 0, 0, 0] = true :: (bounded (probeChannels 0) 0 ++
        (true :: true :: (Spec.field 32 (0 : I32) ++ ([false] ++ (Spec.field 32 (1000 : ObjectId) ++
          [false, false]))))) by decide +kernel]
      refine .event (.announce (probe_actor hn (by decide +kernel) rfl)
        (.object ⟨_, _, _, .inl ⟨hn.named, 0, rfl, rfl⟩, rfl⟩ ?_))
      cases hs : n.spawn 1000 with
      | none => rfl
      | some sp =>
        obtain ⟨m, h1, _⟩ := (h.spawn _ _).1 hs
        cases h1

theorem missingActor_reported : Reported .missingActor :=
  records_reported (e := .missingActor 0) 0 [1, 8] (by decide) fun n _ hn => by
    rw [show bytes [1, 8] = true :: (bounded (probeChannels 0) 0 ++
      (true :: false :: List.replicate 3 false)) by decide +kernel]
    exact .event (.unknown (probe_actor hn (by decide +kernel) rfl) rfl)

set_option maxRecDepth 100000 in
theorem unnamed_root : Lineage [] [] := .root (by decide +kernel)

theorem missingCache_reported : Reported .missingCache :=
  records_reported (e := .missingCache 0 1) 0 [1, 24, 0, 0, 0, 64, 0, 0, 0, 0] (by decide)
    fun n h hn => by
      rw [show bytes [1, 24, 0, 0, 0, 64, 0, 0, 0, 0] = true :: (bounded (probeChannels 0) 0 ++
        (true :: true :: (Spec.field 32 (0 : I32) ++ ([false] ++ (Spec.field 32 (1 : ObjectId) ++
          ([] ++ [false, false])))))) by decide +kernel]
      have hf : ∀ blob, FirstAt (probeBody [] [] blob).objects [] 1 := by
        intro blob
        refine ⟨rfl, fun j hj => ?_⟩
        cases Nat.lt_one_iff.1 hj
        exact fun e => absurd (Option.some.inj e) (by decide +kernel)
      refine .event (.classless (a := ⟨0, some 0, 1, ⟨none, none⟩⟩)
        (probe_actor hn (by decide +kernel) rfl)
        ⟨_, _, .none, [], .inl ⟨hn.named, 0, rfl, rfl⟩, (h.spawn _ _).2
          ⟨[], rfl, .inl ⟨hf _, [], unnamed_root, rfl⟩⟩, ⟨rfl, rfl⟩, rfl⟩ ?_)
      cases hs : n.cls 1 with
      | none => rfl
      | some cd =>
        obtain ⟨m, ns, h1, h2, h3, _⟩ := (h.cls _ _).1 hs
        cases firstAt_unique h1 (hf _)
        exact absurd (lineage_unique h2 unnamed_root) h3

theorem missingAttribute_reported : Reported .missingAttribute :=
  frame_reported (us := []) (e := .missingAttribute 0 0 0) 0 (probeStart ++ []) (by decide)
    fun n _ hn => ⟨_, .inr ⟨_, rfl⟩, by
      rw [probe_bits (by decide) hn]
      exact probe_records hn (.unimplemented (ob := 1) (probe_stream _) (by rfl) .unimplemented)⟩

theorem propPresent_reported : Reported (.inFrame "Is prop present") :=
  props_reported (tag := .byte) (by decide) [0] (by decide) (e := .notEnoughDataFor "Is prop present")
    (.next (ob := 1) (v := .byte 0) (k := []) (probe_stream _) (by rfl)
      (.inl ⟨_, .byte 0, by decide⟩) .flag)

theorem propId_reported : Reported (.inFrame "Prop id") :=
  props_reported (tag := .boolean) (by decide) [130] (by decide) (e := .notEnoughDataFor "Prop id")
    (.next (ob := 1) (v := .boolean false) (k := true :: (bounded 9 0 ++ [false, true]))
      (probe_stream _) (by rfl) (.inl ⟨_, .boolean false, by decide⟩)
      (.next (ob := 1) (v := .boolean false) (k := [true]) (probe_stream _) (by rfl)
        (.inl ⟨_, .boolean false, by decide⟩) (.streamId (.inr (by decide)))))

theorem tooManyFrames_reported : Reported .tooManyFrames := by
  refine network_reported (e := .tooManyFrames 1) 0 (name := []) (by decide) (blob := []) (by decide) ?_
  refine (network_err_iff _ (probeHeader 0) (probeBody [] [] [])
    (show (2 : Nat) ≤ 2 ^ 31 by decide) (by decide) (cap_ok (by decide)) _).2 (.count (probe_range _ _ _) (probe_frames 0) ?_)
  decide

/-- An attribute of an object that is not listed. -/
def strayBody : ReplayBody := { probeBody [] [] [] with netCache := [⟨0, 0, 0, [⟨5, 0⟩]⟩] }

theorem strayBody_ok : BodyOk strayBody := by
  unfold BodyOk ListOk StrOk
  exact ⟨by decide +kernel, by decide +kernel, by decide +kernel, by decide +kernel,
    by decide +kernel, by decide +kernel, by decide +kernel, by decide +kernel, by decide +kernel,
    by decide +kernel⟩

theorem streamTooLarge_reported : Reported .streamTooLargeIndex := by
  have hlt : (encFile (probeHeader 0) strayBody).length < 2 ^ 31 := by decide +kernel
  refine ⟨.never, _, _, small64 rfl hlt, file_network_error .never _ (probeHeader 0) _
    (probeHeader_ok 0) strayBody_ok hlt (small64 rfl hlt).1.1
    ((network_err_iff _ (probeHeader 0) strayBody (show (2 : Nat) ≤ 2 ^ 31 by decide) (by decide)
      (cap_ok (by decide)) _).2
      (.index (a := []) (p := ⟨5, 0⟩) (b := []) rfl (by simp) (by decide))),
    List.mem_singleton.2 rfl⟩

/-- What the probes above are answered with. -/
def frameTold : List Told :=
  [.inFrame "Time", .inFrame "Delta", .timeOutOfRange, .deltaOutOfRange, .inFrame "Actor data",
   .inFrame "Actor Id", .inFrame "Is new actor", .inFrame "New Actor", .objectIdOutOfRange,
   .missingActor, .missingCache, .missingAttribute, .inFrame "Is prop present", .inFrame "Prop id",
   .tooManyFrames, .streamTooLargeIndex]

theorem frameTold_reported : ∀ t ∈ frameTold, Reported t := by
  unfold frameTold
  simp only [List.forall_mem_cons]
  exact ⟨time_reported, delta_reported, timeRange_reported, deltaRange_reported,
    actorData_reported, actorId_reported, isNew_reported, newActor_reported, objectId_reported,
    missingActor_reported, missingCache_reported, missingAttribute_reported, propPresent_reported,
    propId_reported, tooManyFrames_reported, streamTooLarge_reported, by simp⟩

/-! ## Other files that are answered so -/

/-- Sizes and checksums of the sections are zero. -/
def probeFile (h : Header) (b : ReplayBody) : List Byte :=
  List.replicate 8 0 ++ encHeader h ++ List.replicate 8 0 ++ encBody b

def probeBase : List Byte :=
  probeFile ⟨868, 20, some 10, "G".toList, [("A".toList, .array [[("B".toList, .int 0)]])]⟩
    { probeBody "N".toList [] [] with objects := ["TAGame.PRI_TA".toList, "N".toList] }

/-- What is told, the check, the number of bytes of the file, and a byte that is changed. -/
def fileProbes : List (Told × CrcCheck × Nat × Nat × Byte) :=
  [(.insufficientData, .never, 0, 0, 0), (.part "header size", .never, 0, 0, 0),
   (.part "header crc", .never, 4, 0, 0), (.part "header data", .never, 218, 0, 255),
   (.part "major version", .never, 8, 0, 0), (.part "minor version", .never, 12, 0, 0),
   (.part "net version", .never, 16, 0, 0), (.part "game type", .never, 20, 0, 0),
   (.part "header properties", .never, 26, 0, 0), (.part "property size", .never, 50, 0, 0),
   (.part "array property size", .never, 58, 0, 0), (.part "content size", .never, 114, 0, 0),
   (.part "content crc", .never, 118, 0, 0), (.part "content data", .never, 218, 114, 255),
   (.part "levels", .never, 122, 0, 0), (.part "keyframes", .never, 126, 0, 0),
   (.part "network size", .never, 130, 0, 0), (.part "network data", .never, 218, 130, 255),
   (.part "debug info", .never, 134, 0, 0), (.part "tickmarks", .never, 138, 0, 0),
   (.part "packages", .never, 142, 0, 0), (.part "objects", .never, 146, 0, 0),
   (.part "names", .never, 174, 0, 0), (.part "class index", .never, 178, 0, 0),
   (.part "net cache", .never, 182, 0, 0), (.utf8Error, .never, 218, 30, 255),
   (.textTooLarge, .never, 218, 23, 127), (.unexpectedProperty, .never, 218, 36, 66),
   (.listTooLarge, .never, 218, 125, 1), (.crcMismatch, .always, 218, 0, 0),
   (.corrupt "header", .onError, 30, 0, 0), (.corrupt "body", .onError, 217, 0, 0)]

/-- What is told about a file. -/
def toldOf (check : CrcCheck) (data : List Byte) : List Told :=
  match parseWith check .always Env.default64 data with
  | .err e => tells e
  | _ => []

theorem toldOf_mem {check : CrcCheck} {data : List Byte} {t : Told} (h : t ∈ toldOf check data) :
    ∃ e, parseWith check .always Env.default64 data = .err e ∧ t ∈ tells e := by
  unfold toldOf at h
  cases hp : parseWith check .always Env.default64 data with
  | err e => rw [hp] at h; exact ⟨e, rfl, h⟩
  | ok r => rw [hp] at h; cases h
  | fault x => rw [hp] at h; cases h

def fileProbe (p : Told × CrcCheck × Nat × Nat × Byte) : List Byte :=
  (probeBase.take p.2.2.1).set p.2.2.2.1 p.2.2.2.2

/-- The file is answered so. -/
def fileProbeOk (p : Told × CrcCheck × Nat × Nat × Byte) : Bool :=
  decide (p.1 ∈ toldOf p.2.1 (fileProbe p))

set_option maxRecDepth 100000 in
theorem fileProbes_ok1 : ((fileProbes.drop 0).take 8).all fileProbeOk = true := by
  decide +kernel

set_option maxRecDepth 100000 in
theorem fileProbes_ok2 : ((fileProbes.drop 8).take 8).all fileProbeOk = true := by
  decide +kernel

set_option maxRecDepth 100000 in
theorem fileProbes_ok3 : ((fileProbes.drop 16).take 8).all fileProbeOk = true := by
  decide +kernel

set_option maxRecDepth 100000 in
theorem fileProbes_ok4 : ((fileProbes.drop 24).take 8).all fileProbeOk = true := by
  decide +kernel

theorem fileProbes_told : ∀ p ∈ fileProbes, p.1 ∈ toldOf p.2.1 (fileProbe p) := by
  have e : fileProbes = (fileProbes.drop 0).take 8 ++ ((fileProbes.drop 8).take 8 ++
      ((fileProbes.drop 16).take 8 ++ (fileProbes.drop 24).take 8)) := rfl
  have h : fileProbes.all fileProbeOk = true := by
    rw [e]
    simp only [List.all_append, fileProbes_ok1, fileProbes_ok2, fileProbes_ok3, fileProbes_ok4,
      Bool.and_self]
  exact fun p hp => of_decide_eq_true (List.all_eq_true.1 h p hp)

set_option maxRecDepth 100000 in
theorem fileProbes_small : ∀ p ∈ fileProbes, (fileProbe p).length < 2 ^ 31 := by decide +kernel

set_option maxRecDepth 100000 in
theorem probes_all : ∀ t ∈ allTold,
    t ∈ frameTold ∨ t ∈ attrProbes.map (·.1) ∨ t ∈ fileProbes.map (·.1) := by decide +kernel

/-- C90. Every variant but `Unimplemented` and every name is reported for some file. -/
theorem told_reported {t : Told} (ht : t ∈ allTold) : ∃ check data e, Small Env.default64 data ∧
    parseWith check .always Env.default64 data = .err e ∧ t ∈ tells e := by
  rcases probes_all t ht with h | h | h
  · exact frameTold_reported t h
  · obtain ⟨p, hp, rfl⟩ := List.mem_map.1 h
    exact attrProbes_reported hp
  · obtain ⟨p, hp, rfl⟩ := List.mem_map.1 h
    obtain ⟨e, h1, h2⟩ := toldOf_mem (fileProbes_told p hp)
    exact ⟨_, _, e, small64 rfl (fileProbes_small p hp), h1, h2⟩

/-- C90. Exactly the variants and names of `allTold` are ever reported. -/
theorem told_iff_partial (t : Told) : (∃ check np env data e, Small env data ∧
    parseWith check np env data = .err e ∧ t ∈ tells e) ↔ t ∈ allTold :=
  ⟨fun ⟨check, np, _, _, _, hs, h, ht⟩ => told_known check np hs h t ht,
   fun ht => let ⟨check, data, e, hs, h, ht⟩ := told_reported ht
    ⟨check, .always, _, data, e, hs, h, ht⟩⟩

/-- C90 fails: `AttributeError::Unimplemented` is reported for no file. -/
theorem unimplemented_unreported (check : CrcCheck) (np : NetworkParse) {env : Env}
    {data : List Byte} (hs : Small env data) {e : ParseError}
    (h : parseWith check np env data = .err e) : Told.unimplemented ∉ tells e :=
  fun ht => absurd (told_known check np hs h _ ht) (by decide +kernel)

end Boxcars.Props
