import Verif.Spec.Depends
import Verif.Proofs.Replay
import Verif.Props.Version
import Verif.Props.Stream
/-!
# C70: what the frames of a replay depend on
-/
namespace Boxcars.Props
open Boxcars Spec

theorem netProperties_same (env : Env) (objects : List Str) {cs cs' : List ClassNetCache}
    (h : cs.map (fun c => (c.objectInd, c.properties)) =
      cs'.map (fun c => (c.objectInd, c.properties)))
    (m : HMap (List (StreamId × ObjectAttribute))) :
    Network.netProperties env objects cs m = Network.netProperties env objects cs' m := by
  induction cs generalizing cs' m with
  | nil =>
    cases cs' with
    | nil => rfl
    | cons c cs' => cases h
  | cons c cs ih =>
    cases cs' with
    | nil => cases h
    | cons c' cs' =>
      simp only [List.map_cons, List.cons.injEq, Prod.mk.injEq] at h
      obtain ⟨⟨h1, h2⟩, h3⟩ := h
      rw [Network.netProperties, Network.netProperties, h1, h2]
      cases Network.cacheProps env objects c'.properties with
      | ok ps => exact ih h3 _
      | err e => rfl
      | fault f => rfl

/-- C70. Headers and bodies that say the same about the network data have the same outcome,
frames or error: frames depend on nothing else in the file. -/
theorem network_depends (env : Env) {h h' : Header} {b b' : ReplayBody} (hh : SameHeader h h')
    (hb : SameBody b b') : Network.parse env h b = Network.parse env h' b' := by
  have e0 : Network.version h = Network.version h' := by
    unfold Network.version
    rw [hh.major, hh.minor]
    exact congrArg _ hh.net
  have e1 : Network.maxChannels h = Network.maxChannels h' := by
    have := hh.channels
    rw [(headerInt_eq h).2, (headerInt_eq h').2] at this
    exact this
  have e2 : h.numFrames = h'.numFrames := by
    have := hh.frames
    rwa [(headerInt_eq h).1, (headerInt_eq h').1] at this
  have e3 : Network.isLan h = Network.isLan h' := by
    have := hh.lan
    rw [(headerStr_eq h).1, (headerStr_eq h').1] at this
    have k : ∀ g : Header, Network.isLan g = true ↔ g.matchType = some "Lan".toList := by
      intro g
      unfold Network.isLan lit
      generalize "Lan".toList = l
      cases g.matchType <;> simp
    rw [Bool.eq_iff_iff, k, k]
    exact this
  have e4 : Network.isRl223 h = Network.isRl223 h' := by
    have := hh.build
    rw [(headerStr_eq h).2, (headerStr_eq h').2] at this
    have k : ∀ g : Header, Network.isRl223 g = true ↔
        ∃ x, g.buildVersion = some x ∧ "221120.42953.406184".toList ≤ x := by
      intro g
      unfold Network.isRl223
      cases g.buildVersion with
      | none => simp
      | some x => simp only [strGe_iff, Option.some.injEq, exists_eq_left']
    rw [Bool.eq_iff_iff, k, k]
    exact this
  have e5 : ∀ k sp ca, Network.frameDecoder h b k sp ca = Network.frameDecoder h' b' k sp ca := by
    intro k sp ca
    unfold Network.frameDecoder Network.channelBits
    rw [e0, e1, e3, e4, hb.objects, hb.data]
  have e6 : Network.cacheTable env b.objects b.netCache = Network.cacheTable env b'.objects b'.netCache := by
    unfold Network.cacheTable
    rw [hb.objects, netProperties_same env b'.objects hb.cache]
  unfold Network.parse
  rw [e2, e6, hb.objects, hb.data]
  simp only [e5]

/-- C70. The version matters through its thresholds only (C42). -/
theorem network_depends_version (env : Env) {h h' : Header} {b b' : ReplayBody}
    (hv : SameLayout (Network.version h) (Network.version h'))
    (hh : SameHeader { h' with majorVersion := h.majorVersion, minorVersion := h.minorVersion,
                               netVersion := h.netVersion } h)
    (hb : SameBody b b') : Network.parse env h b = Network.parse env h' b' := by
  refine Eq.trans ?_ (network_depends env (h := h') (h' := h') ⟨rfl, rfl, rfl, rfl, rfl, Iff.rfl, Iff.rfl⟩ hb)
  rw [← network_depends env hh (b := b) (b' := b) ⟨rfl, rfl, rfl⟩]
  exact parse_same env _ _ b hv rfl

/-- C70 for files. Two accepted files with headers and bodies that say the same about the
network data have the same frames, whatever else is in them and whatever checks are made. -/
theorem frames_depend {env : Env} {data data' : List Byte} (hs : Room env data.length)
    (hs' : Room env data'.length) {check check' : CrcCheck} {x x' : Sections} {rest rest' : List Byte}
    (hx : FileSecs (decide (check = .always)) x data rest)
    (hx' : FileSecs (decide (check' = .always)) x' data' rest')
    (hh : SameHeader x.header x'.header) (hb : SameBody x.body x'.body) (fs : List Frame) :
    parseWith check .always env data = .ok (x.replay (some ⟨fs⟩)) ↔
      parseWith check' .always env data' = .ok (x'.replay (some ⟨fs⟩)) := by
  have key : ∀ {data : List Byte} {check : CrcCheck} {x : Sections} {rest : List Byte},
      Room env data.length → FileSecs (decide (check = .always)) x data rest →
      (parseWith check .always env data = .ok (x.replay (some ⟨fs⟩)) ↔
        Network.parse env x.header x.body = .ok ⟨fs⟩) := by
    intro data check x rest hs hx
    constructor
    · intro h
      obtain ⟨y, r, net, hy, ⟨f, hf, rfl⟩, e⟩ := (parseWith_ok_iff check .always env data hs _).1 h
      obtain ⟨rfl, _⟩ := FileSecs_unique (by have := hs.1; have := isizeMax_lt env; omega) hx hy
      have : f = ⟨fs⟩ := by
        have := congrArg Replay.networkFrames e
        exact (Option.some.inj this).symm
      rw [← this]
      exact hf
    · intro h
      exact (parseWith_ok_iff check .always env data hs _).2 ⟨x, rest, _, hx, ⟨_, h, rfl⟩, rfl⟩
  rw [key hs hx, key hs' hx', network_depends env hh hb]

/-! ## Order of the declarations -/

theorem declared_same {b b' : ReplayBody} (hb : SameDecls b b') (s : StreamId) (i : Nat) :
    declared b.netCache s i = declared b'.netCache s i := by
  unfold declared
  rw [hb.decls]

theorem inRange_of {b b' : ReplayBody} (hb : SameDecls b b') (h : InRange b.objects b.netCache) :
    InRange b'.objects b'.netCache := by
  intro c hc p hp
  have hm : p ∈ declarations b'.netCache c.objectInd.toNat := by
    unfold declarations
    rw [List.mem_flatMap]
    refine ⟨c, List.mem_filter.2 ⟨hc, ?_⟩, hp⟩
    rw [BitVec.ofNat_toNat, BitVec.setWidth_eq, beq_self_eq_true]
  rw [← hb.decls] at hm
  unfold declarations at hm
  rw [List.mem_flatMap] at hm
  obtain ⟨c', hc', hp'⟩ := hm
  rw [← hb.objects]
  exact h c' (List.mem_of_mem_filter hc') p hp'

theorem sameDecls_symm {b b' : ReplayBody} (hb : SameDecls b b') : SameDecls b' b :=
  ⟨hb.objects.symm, hb.data.symm, fun i => (hb.decls i).symm⟩

theorem networkOf_decls {h : Header} {b b' : ReplayBody} (hb : SameDecls b b') {fs : List Frame}
    (hn : NetworkOf h b fs) : NetworkOf h b' fs := by
  obtain ⟨h1, h2⟩ := hn
  refine ⟨inRange_of hb h1, ?_⟩
  have hc : ∀ o cd, ClassOf b o cd ↔ ClassOf b' o cd := by
    intro o cd
    have : ∀ ns s, inherited b.objects b.netCache ns s = inherited b'.objects b'.netCache ns s := by
      intro ns s
      unfold inherited
      rw [hb.objects, show declared b.netCache s = declared b'.netCache s from
        funext fun i => declared_same hb s i]
    unfold ClassOf
    simp only [this]
    rw [hb.objects]
  cases hk : headerInt h "NumFrames" with
  | none => rw [hk] at h2; exact h2
  | some k =>
    rw [hk] at h2
    obtain ⟨k0, kl, c, n, o, hc', hn, hf⟩ := h2
    refine ⟨k0, by rw [← hb.data]; exact kl, c, n, o, ?_, ?_, by rw [← hb.data]; exact hf⟩
    · exact ⟨hc'.major, hc'.minor, hc'.net, by rw [← hb.objects]; exact hc'.color,
        by rw [← hb.objects]; exact hc'.painted, by rw [← hb.objects]; exact hc'.titleId,
        by rw [← hb.objects]; exact hc'.special, by rw [← hb.objects]; exact hc'.team, hc'.rl223⟩
    · refine ⟨hn.net, hn.channels, hn.named, hn.sticky, fun o sp => ?_, fun o cd => ?_⟩
      · rw [hn.spawn]
        unfold SpawnOf
        rw [hb.objects]
      · rw [hn.cls, hc]

/-- C70. The frames do not depend on the order in which the attributes of different objects are
declared.  (The error may: it is about the first declaration that cannot be read.) -/
theorem declaration_order (env : Env) {h h' : Header} {b b' : ReplayBody} (hh : SameHeader h h')
    (hb : SameDecls b b') (hl : b.objects.length ≤ 2 ^ 31) (hn : b.networkData.length < 2 ^ 31)
    (hcap : b.networkData.length * env.frameSize ≤ env.isizeMax) (fs : List Frame) :
    Network.parse env h b = .ok ⟨fs⟩ ↔ Network.parse env h' b' = .ok ⟨fs⟩ := by
  rw [← network_depends env hh (b := b') ⟨rfl, rfl, rfl⟩, network_iff env h b hl hn hcap,
    network_iff env h b' (by rw [← hb.objects]; exact hl) (by rw [← hb.data]; exact hn)
      (by rw [← hb.data]; exact hcap)]
  exact ⟨networkOf_decls hb, networkOf_decls (sameDecls_symm hb)⟩

theorem filter_key (cs : List ClassNetCache) (hd : (cs.map (·.objectInd)).Nodup) (k : I32) :
    (cs.filter (fun c => c.objectInd == k)).length ≤ 1 := by
  induction cs with
  | nil => exact Nat.zero_le _
  | cons c cs ih =>
    rw [List.map_cons, List.nodup_cons] at hd
    by_cases hc : c.objectInd = k
    · rw [List.filter_cons_of_pos (by rw [hc, beq_self_eq_true])]
      have : cs.filter (fun c => c.objectInd == k) = [] := by
        rw [List.filter_eq_nil_iff]
        intro c' hc' h
        rw [beq_iff_eq] at h
        exact hd.1 (List.mem_map.2 ⟨c', hc', by rw [h, hc]⟩)
      rw [this]
      exact Nat.le_refl _
    · rw [List.filter_cons_of_neg (by rw [beq_iff_eq]; exact hc)]
      exact ih hd.2

/-- C70. In particular the class entries may be put into any order if each object has one. -/
theorem class_order {b b' : ReplayBody} (ho : b.objects = b'.objects)
    (hd : b.networkData = b'.networkData) (hp : b.netCache.Perm b'.netCache)
    (hn : (b.netCache.map (·.objectInd)).Nodup) : SameDecls b b' := by
  refine ⟨ho, hd, fun i => ?_⟩
  unfold declarations
  congr 1
  have h1 := filter_key b.netCache hn (BitVec.ofNat 32 i)
  have h2 := hp.filter (fun c => c.objectInd == BitVec.ofNat 32 i)
  generalize b.netCache.filter _ = l at h1 h2
  match l, h1 with
  | [], _ => exact (List.nil_perm.1 h2).symm
  | [x], _ => exact List.singleton_perm.1 h2

/-- Two classes in either order. -/
example : SameDecls { wroteBody with netCache := [⟨1, 0, 0, [⟨2, 0⟩]⟩, ⟨0, 0, 0, [⟨3, 1⟩]⟩] }
    { wroteBody with netCache := [⟨0, 0, 0, [⟨3, 1⟩]⟩, ⟨1, 0, 0, [⟨2, 0⟩]⟩] } :=
  class_order rfl rfl (List.Perm.swap _ _ _) (by decide)

/-! ## Each of these inputs matters -/

/-- The frames of a header and a body. -/
def framesOf (h : Header) (b : ReplayBody) : Option (List Frame) :=
  match Network.parse Env.default64 h b with
  | .ok f => some f.frames
  | _ => none

/-- `wroteHeader` with other properties. -/
def withProps (ps : List (Str × HeaderProp)) : Header := { wroteHeader with properties := ps }

/-- A frame that announces actor 5 and updates it with 64 zero bits, followed by zeros. -/
def idBody : ReplayBody :=
  { wroteBody with
    networkData := [0, 0, 128, 63, 0, 0, 0, 63, 11, 248, 0, 0, 0, 0, 0, 0, 0, 0, 24, 15, 176,
      128, 2, 0, 0, 0, 0, 0, 0, 0, 0],
    objects := ["TAGame.Ball_TA", "TAGame.RBActor_TA", "ProjectX.GRI_X:GameServerID",
      "TAGame.RBActor_TA:TeleportCounter"].map String.toList }


/-- Number of frames. -/
def countOf (h : Header) (b : ReplayBody) : Option Nat := (framesOf h b).map List.length

/-- Whether each update is a number. -/
def qWordsOf (h : Header) (b : ReplayBody) : Option (List (List Bool)) :=
  (framesOf h b).map fun fs => fs.map fun f => f.updatedActors.map fun u =>
    match u.attr with
    | .qWord _ => true
    | _ => false

theorem ne_of_count {h h' : Header} {b b' : ReplayBody} (e : countOf h b ≠ countOf h' b') :
    framesOf h b ≠ framesOf h' b' := fun h => e (congrArg (Option.map List.length) h)

theorem ne_of_qWords {h h' : Header} {b b' : ReplayBody} (e : qWordsOf h b ≠ qWordsOf h' b') :
    framesOf h b ≠ framesOf h' b' := fun h => e (congrArg (Option.map _) h)

set_option maxRecDepth 100000 in
theorem frames_matter :
    framesOf (withProps [("NumFrames".toList, .int 2)]) wroteBody ≠
      framesOf wroteHeader wroteBody :=
  ne_of_count (by decide +kernel)

set_option maxRecDepth 100000 in
theorem channels_matter :
    framesOf (withProps [("NumFrames".toList, .int 3), ("MaxChannels".toList, .int 100)])
      wroteBody ≠ framesOf wroteHeader wroteBody :=
  ne_of_count (by decide +kernel)

set_option maxRecDepth 100000 in
theorem version_matters :
    framesOf { wroteHeader with minorVersion := 13 } wroteBody ≠ framesOf wroteHeader wroteBody :=
  ne_of_count (by decide +kernel)

set_option maxRecDepth 100000 in
theorem match_matters :
    framesOf { withProps [("NumFrames".toList, .int 3), ("MatchType".toList, .name "Lan".toList)]
        with minorVersion := 14 } wroteBody ≠
      framesOf { wroteHeader with minorVersion := 14 } wroteBody :=
  ne_of_count (by decide +kernel)

set_option maxRecDepth 100000 in
theorem build_matters :
    framesOf (withProps [("NumFrames".toList, .int 1),
        ("BuildVersion".toList, .str "221120.42953.406184".toList)]) idBody ≠
      framesOf (withProps [("NumFrames".toList, .int 1)]) idBody :=
  ne_of_qWords (by decide +kernel)

set_option maxRecDepth 100000 in
theorem objects_matter :
    framesOf wroteHeader { wroteBody with objects := demoObjects.reverse } ≠
      framesOf wroteHeader wroteBody :=
  ne_of_count (by decide +kernel)

set_option maxRecDepth 100000 in
theorem declarations_matter :
    framesOf wroteHeader { wroteBody with netCache := [⟨1, 0, 0, [⟨2, 1⟩, ⟨3, 0⟩]⟩] } ≠
      framesOf wroteHeader wroteBody :=
  ne_of_count (by decide +kernel)

set_option maxRecDepth 100000 in
theorem data_matters :
    framesOf wroteHeader { wroteBody with networkData := 1 :: wroteData } ≠
      framesOf wroteHeader wroteBody :=
  ne_of_count (by decide +kernel)

/-- `wroteHeader` with another game type and another property. -/
def otherHeader : Header :=
  { withProps [("NumFrames".toList, .int 3), ("X".toList, .int 5)]
    with gameType := "TAGame.Replay".toList }

/-- `wroteBody` with other names, packages, levels, tick marks, classes, parent and cache ids. -/
def otherBody : ReplayBody :=
  { wroteBody with
    names := [[]], levels := [[], []], packages := [[]], tickMarks := [⟨[], 1⟩]
    classIndices := [⟨[], 3⟩], netCache := [⟨1, 7, 8, [⟨2, 0⟩, ⟨3, 1⟩]⟩] }

/-- The rest of the file does not matter. -/
example : framesOf otherHeader otherBody = framesOf wroteHeader wroteBody := by
  have e1 : headerStr wroteHeader "BuildVersion" = none := by decide +kernel
  have e2 : headerStr otherHeader "BuildVersion" = none := by decide +kernel
  have h : SameHeader otherHeader wroteHeader :=
    ⟨rfl, rfl, rfl, by decide +kernel, by decide +kernel, by decide +kernel, by rw [e1, e2]⟩
  have b : SameBody otherBody wroteBody := ⟨rfl, rfl, by decide +kernel⟩
  unfold framesOf
  rw [network_depends Env.default64 h b]

end Boxcars.Props
