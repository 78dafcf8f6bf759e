import Verif.Proofs.LocalMove
import Verif.Proofs.Plain
import Verif.Props.NoPanic
import Verif.Props.NetSample
/-!
# C48: what a network failure reports
-/
namespace Boxcars.Props
open Boxcars Spec

/-- C48, first half: a failure in a frame comes with the frames completed before it, the new
actors and updates understood of the failing frame and the announced actors (`ContextOf`);
the failing frame starts where the completed ones end. -/
theorem failure_context {env : Env} {h : Header} {body : ReplayBody}
    (hl : body.objects.length ≤ 2 ^ 31) (hn : body.networkData.length < 2 ^ 31) {e : FrameError}
    {ctx : FrameContext} (hp : Network.parse env h body = .err (.frameError e ctx)) :
    ∃ c n ess known j es us, Reading h body c n ctx.frames ess known j ∧
      FrameFail n (AttrAccepts c) (AttrFails c) known es us e j ∧
      ContextOf n body.objects ctx.frames known es us ctx := by
  have := network_err env h body hl hn hp
  cases this with
  | frame h1 h2 h3 h4 h5 h6 h7 h8 h9 =>
    obtain ⟨ess, j, f1, f2, f3, f4⟩ := framesFail_iff.1 h7
    have hfr := h8.frames
    subst hfr
    exact ⟨_, _, ess, _, j, _, _, ⟨h1, ⟨_, h2, h3, h4, f2⟩, h5, h6, f1, f3⟩,
      f4, h8⟩

/-- A parse that fails with a network error read header and body and fails on the network
section. -/
theorem network_error_source {check : CrcCheck} {np : NetworkParse} {env : Env} {data : List Byte}
    (hs : data.length ≤ env.isizeMax) {e : NetworkError}
    (hp : parseWith check np env data = .err (.networkError e)) :
    ∃ x rest, FileSecs (decide (check = .always)) x data rest ∧
      Network.parse env x.header x.body = .err e := by
  rw [parseWith_eq] at hp
  cases hf : front check env (CoreSt.init data) with
  | ok x s =>
    rw [hf] at hp
    simp only [networkStep_cases] at hp
    obtain ⟨rest, hr, _⟩ := (front_ok_iff check env data hs x).1 ⟨s, hf⟩
    refine ⟨x, rest, hr, ?_⟩
    cases hq : Network.parse env x.header x.body with
    | ok a => rw [hq] at hp; cases np <;> cases hp
    | err e' =>
      rw [hq] at hp
      cases np <;> cases hp
      rfl
    | fault f => rw [hq] at hp; cases np <;> cases hp
  | err e' s =>
    rw [hf] at hp
    cases hp
    exact absurd hf (front_not_network check)
  | fault f => rw [hf] at hp; cases hp

/-- C48 for whole files: header and body are as described, and the failure is that of the
network section. -/
theorem replay_failure_context {check : CrcCheck} {np : NetworkParse} {env : Env}
    {data : List Byte} (hs : data.length ≤ env.isizeMax) {e : FrameError} {ctx : FrameContext}
    (hp : parseWith check np env data = .err (.networkError (.frameError e ctx))) :
    ∃ x rest c n ess known j es us, FileSecs (decide (check = .always)) x data rest ∧
      Reading x.header x.body c n ctx.frames ess known j ∧
      FrameFail n (AttrAccepts c) (AttrFails c) known es us e j ∧
      ContextOf n x.body.objects ctx.frames known es us ctx := by
  obtain ⟨x, rest, h1, h2⟩ := network_error_source hs hp
  obtain ⟨_, h3, h4⟩ := fileSecs_sizes h1
  obtain ⟨c, n, ess, known, j, es, us, h⟩ :=
    failure_context (by omega) h4 h2
  exact ⟨x, rest, c, n, ess, known, j, es, us, h1, h⟩

/-- An instance: after two frames, the third updates an actor that was deleted.  Actor 5 is
reported although it was deleted as well (see C31). -/
example : ∃ ctx, parseWith .always .always Env.default64 demoStray =
      .err (.networkError (.frameError (.missingActor 300) ctx)) ∧
    ctx.frames = demoFrames.take 2 ∧ ctx.actors = [(5, 0)] := by
  have h := demoStray_check
  split at h
  · rename_i id c hp
    simp only [Bool.and_eq_true, beq_iff_eq] at h
    obtain ⟨⟨⟨⟨⟨h1, h2⟩, h3⟩, _⟩, _⟩, _⟩ := h
    subst h1
    exact ⟨c, hp, h2, h3⟩
  · cases h

/-- C48, second half: if no awake body of the completed frames lacks a velocity, then every network
section of the same tables that starts with the same bits and is understood has them as its
first frames.  The assumption is needed, see `prefix_fails`; it holds if at least 67 bits follow the
completed frames (`completed_move`). -/
theorem completed_prefix_partial {env : Env} {h : Header} {body body' : ReplayBody}
    (ho : body'.objects = body.objects) (hc : body'.netCache = body.netCache)
    (hl : body.objects.length ≤ 2 ^ 31) (hn' : body'.networkData.length < 2 ^ 31)
    {c : Spec.Ctx} {n : Net} {fs : List Frame} {ess : List (List Event)} {known : Known} {j : Bits}
    (hr : Reading h body c n fs ess known j) (hm : AllMove fs) :
    ∃ w, bytes body.networkData = w ++ j ∧
      ∀ j' fs', bytes body'.networkData = w ++ j' → Network.parse env h body' = .ok ⟨fs'⟩ →
        fs <+: fs' := by
  obtain ⟨w, hw, hw'⟩ := framesAt_moved hr.frames hm
  refine ⟨w, hw, ?_⟩
  intro j' fs' hbits hp
  have hctx : CtxOf h body' c := by
    have := hr.ctx
    refine ⟨this.major, this.minor, this.net, ?_, ?_, ?_, ?_, ?_, this.rl223⟩ <;> rw [ho]
    · exact this.color
    · exact this.painted
    · exact this.titleId
    · exact this.special
    · exact this.team
  have hnet : NetOf h body' c n := by
    have := hr.net
    refine ⟨this.net, this.channels, this.named, this.sticky, ?_, ?_⟩
    · intro o sp; rw [this.spawn]; unfold SpawnOf; rw [ho]
    · intro o cd; rw [this.cls]; unfold ClassOf; rw [ho, hc]
  have hin : InRange body'.objects body'.netCache := by rw [ho, hc]; exact hr.inRange
  have hok := network_ok env h body' (by rw [ho]; exact hl) hn' hp
  obtain ⟨k, k1, _, _, k4⟩ := hr.count
  unfold NetworkOf at hok
  rw [k1] at hok
  obtain ⟨_, _, _, c', n', o, d1, d2, d3⟩ := hok
  have e1 := ctxOf_unique hctx d1
  subst e1
  have e2 := netOf_unique hnet d2
  subst e2
  obtain ⟨o', ho'⟩ := framesRel_take (m := fs.length) (by omega) d3
  have := framesRel_unique (by rw [ho]; exact hl) hin hctx hnet ho'
    (hbits ▸ framesAt_rel (hw' j'))
  exact ⟨_, by rw [← this, List.take_append_drop]⟩

/-- Bodies are cut within the last 66 bits only. -/
theorem completed_move {h : Header} {body : ReplayBody} {c : Spec.Ctx} {n : Net} {fs : List Frame}
    {ess : List (List Event)} {known : Known} {j : Bits}
    (hr : Reading h body c n fs ess known j) (hj : 67 ≤ j.length) : AllMove fs :=
  framesAt_allMove hr.frames hj

/-! The assumption is needed: the velocities of a rigid body are taken for absent if the data ends
within them, and with more data they are present. -/

def endHeader : Header := ⟨868, 20, some 10, "G".toList, [("NumFrames".toList, .int 2)]⟩

def endBody (blob : List Byte) : ReplayBody where
  levels := []
  keyframes := []
  debugInfo := []
  tickMarks := []
  packages := []
  objects := ["TAGame.Ball_TA", "TAGame.RBActor_TA",
    "TAGame.RBActor_TA:ReplicatedRBState"].map String.toList
  names := []
  classIndices := []
  netCache := [⟨1, 0, 0, [⟨2, 0⟩]⟩]
  networkData := blob

def endData : List Byte :=
  [0, 0, 128, 63, 0, 0, 0, 63, 11, 248, 0, 0, 0, 0, 0, 0, 0, 0, 24, 177, 128, 2, 35, 0, 0, 2, 0, 8,
   0, 96, 173, 252, 255]

def endMore : List Byte := [0, 0, 0, 0, 0, 0, 96, 4, 0, 0, 0, 0, 0, 0, 0, 0]

/-- The velocities in the updates of the first frame. -/
def velocities (fs : List Frame) : List (Option (Option Vector3f × Option Vector3f)) :=
  (fs.head?.map (·.updatedActors)).getD [] |>.map fun u =>
    match u.attr with
    | .rigidBody r => some (r.linearVelocity, r.angularVelocity)
    | _ => none

set_option maxRecDepth 100000 in
/-- The prefix claim of C48 fails near the end of data. -/
theorem prefix_fails : ∃ e ctx fs,
    Network.parse Env.default64 endHeader (endBody endData) = .err (.frameError e ctx) ∧
    Network.parse Env.default64 endHeader (endBody (endData ++ endMore)) = .ok ⟨fs⟩ ∧
    ¬ctx.frames <+: fs := by
  have h1 : (match Network.parse Env.default64 endHeader (endBody endData) with
      | .err (.frameError _ ctx) => ctx.frames.length == 1 && velocities ctx.frames == [some (none, none)]
      | _ => false) = true := by decide +kernel
  have h2 : (match Network.parse Env.default64 endHeader (endBody (endData ++ endMore)) with
      | .ok ⟨fs⟩ => velocities fs != [some (none, none)]
      | _ => false) = true := by decide +kernel
  cases p1 : Network.parse Env.default64 endHeader (endBody endData) with
  | ok a => rw [p1] at h1; cases h1
  | fault f => rw [p1] at h1; cases h1
  | err x =>
    rw [p1] at h1
    cases x with
    | frameError e ctx =>
      simp only [Bool.and_eq_true, beq_iff_eq] at h1
      cases p2 : Network.parse Env.default64 endHeader (endBody (endData ++ endMore)) with
      | err x => rw [p2] at h2; cases h2
      | fault f => rw [p2] at h2; cases h2
      | ok a =>
        rw [p2] at h2
        obtain ⟨fs⟩ := a
        simp only [bne_iff_ne] at h2
        refine ⟨e, ctx, fs, rfl, rfl, ?_⟩
        rintro ⟨t, ht⟩
        apply h2
        rw [← h1.2, ← ht]
        match hc : ctx.frames, h1.1 with
        | [f], _ => rfl
    | _ => cases h1

end Boxcars.Props
