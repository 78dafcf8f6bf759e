import Verif.Proofs.Message
import Verif.Props.Failure
/-!
# C51, C52: what the message of a frame error says
-/
namespace Boxcars.Props
open Boxcars Spec

/-! ## C51 -/

/-- C51. The reason given for a failing frame is the right one (`Reason`): the objects and
attributes it names are those of the file, and the candidates are all attributes with that
stream id, without repetition and in alphabetical order. -/
theorem failure_reason (f : Display.Fmt) {env : Env} {h : Header} {body : ReplayBody}
    (hl : body.objects.length ≤ 2 ^ 31) (hn : body.networkData.length < 2 ^ 31) {e : FrameError}
    {ctx : FrameContext} (hp : Network.parse env h body = .err (.frameError e ctx)) :
    Reason f.tag body e (Display.contextualize f e ctx) := by
  have := network_err env h body hl hn hp
  cases this with
  | frame h1 _ _ _ h5 h6 h7 h8 h9 =>
    obtain ⟨ess, j, _, _, _, f4⟩ := framesFail_iff.1 h7
    exact reason_of f hl h1 h8.objects h9 h6 (frame_why (attrErrors _) f4)

/-- C51 for whole files. -/
theorem message_reason (f : Display.Fmt) {check : CrcCheck} {np : NetworkParse} {env : Env}
    {data : List Byte} (hs : data.length ≤ env.isizeMax) {e : FrameError} {ctx : FrameContext}
    (hp : parseWith check np env data = .err (.networkError (.frameError e ctx))) :
    ∃ x rest reason, FileSecs (decide (check = .always)) x data rest ∧
      Reason f.tag x.body e reason ∧
      Display.parseError f (.networkError (.frameError e ctx)) =
        "Error decoding frame: ".toList ++ Display.frameError f e
          ++ (match (generalizing := false) e with
              | .missingAttribute .. => []
              | _ => ". ".toList)
          ++ reason ++ "\n".toList ++ Display.context f ctx := by
  obtain ⟨x, rest, h1, h2⟩ := network_error_source hs hp
  obtain ⟨_, h3, h4⟩ := fileSecs_sizes h1
  exact ⟨x, rest, _, h1, failure_reason f (by omega) h4 h2, rfl⟩

/-- The reason is determined by the file and the error. -/
theorem reason_unique {tagName : AttributeTag → Str} {body : ReplayBody} {e : FrameError}
    {r r' : Str} (h : Reason tagName body e r) (h' : Reason tagName body e r') : r = r' := by
  have hcand : ∀ {s a b}, Candidates body s a → Candidates body s b → a = b := by
    intro s a b ha hb
    cases ha with
    | mk h1 h2 =>
      cases hb with
      | mk k1 k2 => rw [listing_unique h1 k1, listing_unique h2 k2]
  cases h with
  | classless h1 _ =>
    cases h' with
    | classless k1 _ => rw [h1] at k1; cases k1; rfl
  | undeclared h1 h2 h3 h4 =>
    cases h' with
    | undeclared k1 k2 k3 k4 => rw [h1] at k1; cases k1; rw [hcand h4 k4]
    | unimplemented k1 k2 => rw [classOf_unique h2 k1, k2] at h3; cases h3
  | unimplemented h1 h2 h3 _ =>
    cases h' with
    | undeclared k1 k2 k3 k4 => rw [classOf_unique h1 k2, k3] at h2; cases h2
    | unimplemented k1 k2 k3 _ =>
      rw [classOf_unique h1 k1, k2] at h2
      cases h2
      rw [h3] at k3
      cases k3
      rfl
  | value h1 h2 h3 h4 h5 =>
    cases h' with
    | value k1 k2 k3 k4 k5 =>
      rw [classOf_unique h2 k2, k3] at h3
      cases h3
      rw [h1] at k1
      cases k1
      rw [hcand h5 k5]
  | short => cases h'; rfl
  | time => cases h'; rfl
  | delta => cases h'; rfl
  | object => cases h'; rfl
  | actor => cases h'; rfl

/-! An instance: stream id 1 is not declared for balls; it is declared twice elsewhere. -/

def reasonHeader : Header := ⟨868, 20, some 10, "G".toList, [("NumFrames".toList, .int 1)]⟩

def reasonBody : ReplayBody where
  levels := []
  keyframes := []
  debugInfo := []
  tickMarks := []
  packages := []
  objects := ["TAGame.Ball_TA", "TAGame.Car_TA", "TAGame.PRI_TA", "TAGame.RBActor_TA:bFrozen",
    "Some.New:Thing", "TAGame.RBActor_TA"].map String.toList
  names := []
  classIndices := []
  netCache := [⟨0, 0, 0, [⟨3, 2⟩]⟩, ⟨1, 0, 0, [⟨3, 1⟩]⟩, ⟨2, 0, 0, [⟨4, 1⟩]⟩]
  networkData := [0, 0, 128, 63, 0, 0, 0, 63, 11, 248, 0, 0, 0, 0, 0, 0, 0, 0, 168, 176, 128, 254]

/-- Stand-ins for the text made by the standard library. -/
def sampleFmt : Display.Fmt where
  f32 x := displayNat x.toNat
  tag _ := "TAG".toList
  attr _ := "VALUE".toList
  location _ := "LOCATION".toList
  rotation _ := "ROTATION".toList

set_option maxRecDepth 100000 in
example : (match Network.parse Env.default64 reasonHeader reasonBody with
    | .err e => String.ofList (Display.networkError sampleFmt e)
    | _ => "") =
  "Error decoding frame: attribute unknown or not implemented:\n----------\nactor id: 5\n\
   actor object id: 0\nattribute stream id: 1\n\
   did not find attribute id (1) on TAGame.Ball_TA in object hierarchy: searching all \
   attributes with the same stream id, unknown attributes: [Some.New:Thing], all attributes \
   with that stream id: [(Some.New:Thing), (TAGame.RBActor_TA:bFrozen)]. \n\
   Current frame: 0 (time: 0 delta: 0)\n\nLast new actor:\n---------------\nactor id: 5\n\
   name id: 7\nobject id: 0\nobject name: TAGame.Ball_TA\nlocation: LOCATION\n\
   rotation: ROTATION\n" := by
  decide +kernel

/-! ## C52 -/

/-- The object of an actor after a history. -/
def ownerAfter (n : Net) (before : List Event) (id : ActorId) : Option ObjectId :=
  Known.none.afterAll n before id

/-- C52, with the object that the actor has when the failure occurs: the message ends with
the position of the failure and the last activity before it. -/
theorem activity_shown (f : Display.Fmt) {env : Env} {h : Header} {body : ReplayBody}
    (hl : body.objects.length ≤ 2 ^ 31) (hn : body.networkData.length < 2 ^ 31) {e : FrameError}
    {ctx : FrameContext} (hp : Network.parse env h body = .err (.frameError e ctx)) :
    ∃ c n ess known j es us txt, Reading h body c n ctx.frames ess known j ∧
      FrameFail n (AttrAccepts c) (AttrFails c) known es us e j ∧
      ActivityText f body.objects
        (fun _ id => ownerAfter n (ess.flatten ++ recordsRead es us) id) ctx.frames ess
        (recordsRead es us) txt ∧
      Display.context f ctx = positionText f ctx.frames ++ txt := by
  obtain ⟨c, n, ess, known, j, es, us, h2, h3, h4⟩ := failure_context hl hn hp
  obtain ⟨txt, k1, k2⟩ := activity_of f hl h2.inRange h2.net h2.frames h3 h4
  exact ⟨c, n, ess, known, j, es, us, txt, h2, h3, k1, k2⟩

/-- C52, if the actor of the last update is not deleted or announced again afterwards: the
update is shown with the object its actor had when it was updated.

Full statement: the same without that condition.  It is false: see `shown_object_wrong`. -/
theorem shown_object_partial (f : Display.Fmt) {h : Header} {body : ReplayBody}
    (hl : body.objects.length ≤ 2 ^ 31) {e : FrameError} {ctx : FrameContext} {c : Spec.Ctx}
    {n : Net} {ess : List (List Event)} {known : Known} {j : Bits}
    {es : List Event} {us : List UpdatedAttribute}
    (hr : Reading h body c n ctx.frames ess known j)
    (hf : FrameFail n (AttrAccepts c) (AttrFails c) known es us e j)
    (hc : ContextOf n body.objects ctx.frames known es us ctx)
    (hlast : ∀ before id vs after, ess.flatten ++ recordsRead es us = before ++ .update id vs :: after →
      vs ≠ [] → updates after = [] → ∀ ev ∈ after, ¬Touches id ev) :
    ∃ txt, ActivityText f body.objects (ownerAfter n) ctx.frames ess (recordsRead es us) txt ∧
      Display.context f ctx = positionText f ctx.frames ++ txt := by
  obtain ⟨txt, k1, k2⟩ := activity_of f hl hr.inRange hr.net hr.frames hf hc
  exact ⟨txt, activityText_true hlast k1, k2⟩

/-! An instance: nothing is known of the failing frame and the one before only deletes; the
last update is two frames back. -/

set_option maxRecDepth 100000 in
example : (match parseWith .always .always Env.default64 demoStray with
    | .err e => String.ofList (Display.parseError sampleFmt e)
    | _ => "") =
  "Error decoding frame: attribute update references unknown actor: 300. \n\
   Current frame: 2 (time: 1069547520 delta: 1056964608)\n- No actor information decoded\n\
   Retrace frame: 0 (time: 1065353216, delta: 1056964608)\n\n\
   Last actor update:\n------------------\nactor id: 5\nobject id: 0\n\
   object name: TAGame.Ball_TA\nattribute stream id: 1\nattribute object id: 3\n\
   attribute object name: TAGame.RBActor_TA:TeleportCounter\nattribute: VALUE\n" := by
  decide +kernel

/-! Actor 5 is announced as a ball and updated, then announced as an `RBActor_TA`.  Then the
data ends.  The message shows the update with the second object, whose class does not even
have that attribute. -/

def staleBody : ReplayBody where
  levels := []
  keyframes := []
  debugInfo := []
  tickMarks := []
  packages := []
  objects := ["TAGame.Ball_TA", "TAGame.RBActor_TA", "TAGame.RBActor_TA:bFrozen"].map String.toList
  names := []
  classIndices := []
  netCache := [⟨0, 0, 0, [⟨2, 0⟩]⟩]
  networkData := [0, 0, 128, 63, 0, 0, 0, 63, 11, 248, 0, 0, 0, 0, 0, 0, 0, 0, 168, 176, 128, 182,
    128, 15, 0, 0, 0, 4, 0, 0, 0, 128, 10, 255]

set_option maxRecDepth 100000 in
theorem stale_check : (match Network.parse Env.default64 reasonHeader staleBody with
    | .err (.frameError _ ctx) => ctx.frames == [] && ctx.actors == [(5, 1)] &&
        ctx.updatedActors == [⟨5, 0, 2, .boolean true⟩] && ctx.objects == staleBody.objects
    | _ => false) = true := by
  decide +kernel

set_option maxRecDepth 100000 in
theorem stale_table : (tableOf staleBody).map (fun x => x.map fun ci => ci.attributes.get 0) =
    [some (some ⟨.boolean, 2⟩), some none, none] := by
  decide +kernel

/-- The message. -/
example : (match Network.parse Env.default64 reasonHeader staleBody with
    | .err e => String.ofList (Display.networkError sampleFmt e)
    | _ => "") =
  "Error decoding frame: not enough data to decode Actor Id. \nCurrent frame: 0 (time: 0 delta: 0)\n\n\
   Last actor update:\n------------------\nactor id: 5\nobject id: 1\n\
   object name: TAGame.RBActor_TA\nattribute stream id: 0\nattribute object id: 2\n\
   attribute object name: TAGame.RBActor_TA:bFrozen\nattribute: VALUE\n" := by
  decide +kernel

/-- Without the second announcement the update is shown with the ball. -/
example : (match Network.parse Env.default64 reasonHeader
      { staleBody with networkData := staleBody.networkData.take 21 ++ [246] } with
    | .err e => String.ofList (Display.networkError sampleFmt e)
    | _ => "") =
  "Error decoding frame: not enough data to decode Actor Id. \nCurrent frame: 0 (time: 0 delta: 0)\n\n\
   Last actor update:\n------------------\nactor id: 5\nobject id: 0\n\
   object name: TAGame.Ball_TA\nattribute stream id: 0\nattribute object id: 2\n\
   attribute object name: TAGame.RBActor_TA:bFrozen\nattribute: VALUE\n" := by
  decide +kernel

/-- C52 fails. -/
theorem shown_object_wrong (f : Display.Fmt) : ∃ env h body e ctx c n ess known j es us,
    Network.parse env h body = .err (.frameError e ctx) ∧
      Reading h body c n ctx.frames ess known j ∧
      FrameFail n (AttrAccepts c) (AttrFails c) known es us e j ∧
      ContextOf n body.objects ctx.frames known es us ctx ∧
      ¬∃ txt, ActivityText f body.objects (ownerAfter n) ctx.frames ess (recordsRead es us) txt ∧
        Display.context f ctx = positionText f ctx.frames ++ txt := by
  have hchk := stale_check
  cases hp : Network.parse Env.default64 reasonHeader staleBody with
  | ok a => rw [hp] at hchk; cases hchk
  | fault a => rw [hp] at hchk; cases hchk
  | err x =>
    rw [hp] at hchk
    cases x with
    | streamTooLargeIndex => cases hchk
    | tooManyFrames => cases hchk
    | frameError e ctx =>
      simp only [Bool.and_eq_true, beq_iff_eq] at hchk
      obtain ⟨⟨⟨q1, q2⟩, q3⟩, q4⟩ := hchk
      have hl : staleBody.objects.length ≤ 2 ^ 31 := by decide
      obtain ⟨c, n, ess, known, j, es, us, h2, h3, h4⟩ :=
        failure_context hl (by decide) hp
      refine ⟨_, _, _, e, ctx, c, n, ess, known, j, es, us, hp, h2, h3, h4, ?_⟩
      rintro ⟨txt, k1, k2⟩
      have hess : ess = [] := by
        have := (framesAt_known h2.frames).2
        rw [q1] at this
        cases this
        rfl
      have hknown : known = Known.none := by
        have := (framesAt_known h2.frames).1
        rw [hess] at this
        exact this
      have hup : updates (recordsRead es us) = [⟨5, 0, 2, .boolean true⟩] := by
        rw [updates_recordsRead, ← h4.updatedActors, q3]
      -- what the message shows
      have hctx : Display.context f ctx = positionText f ctx.frames ++
          (Activity.update ⟨5, 0, 2, .boolean true⟩ (some 1)).text f staleBody.objects := by
        refine context_update f hl q4 (by rw [q3]; rfl) (by rw [q2]; rfl) ⟨by decide, ?_⟩
        intro o ho
        cases ho
        decide
      rw [hctx] at k2
      have k2 := List.append_cancel_left k2
      cases k1 with
      | retrace hq => rw [hq.1] at hup; cases hup
      | none hq => rw [hq.1] at hup; cases hup
      | @current a hla hL =>
        cases hla with
        | announce hq => rw [hq] at hup; cases hup
        | @update es1 id vs u es2 hs hu2 =>
          have hv : vs = [] ∧ u = ⟨5, 0, 2, .boolean true⟩ := by
            rw [hs, updates_append] at hup
            simp only [updates, hu2, List.append_nil] at hup
            rw [← List.append_assoc] at hup
            have := List.append_inj' (s₁ := updates es1 ++ vs) (s₂ := []) hup rfl
            exact ⟨(List.append_eq_nil_iff.1 this.1).2, by simpa using this.2⟩
          obtain ⟨rfl, rfl⟩ := hv
          obtain ⟨obj, cd, d1, d2, d3⟩ := update_declared h3 hs (by simp)
          obtain ⟨tag, d3⟩ := d3 ⟨5, 0, 2, .boolean true⟩ List.mem_cons_self
          obtain ⟨ci, d4, rfl⟩ := ((table_class hl h2.inRange).2 _ _).1 ((h2.net.cls _ _).1 d2)
          have hlen := (table_class hl h2.inRange).1
          rw [nth_eq_some (by omega)] at d4
          have d5 := congrArg (fun l => l[obj.toNat]?) stale_table
          simp only [List.getElem?_map, d4, Option.map_some] at d5
          have d3 : (ci.attributes.get 0).map (fun a => (a.attr, a.objectId)) = some (tag, 2) := d3
          have hobj : obj = 0 := by
            apply BitVec.eq_of_toNat_eq
            match hm : obj.toNat with
            | 0 => rfl
            | 1 =>
              rw [hm] at d5
              have d5 : some (some (ci.attributes.get 0)) = some (some none) := d5
              simp only [Option.some.injEq] at d5
              rw [d5] at d3
              cases d3
            | 2 => rw [hm] at d5; simp at d5
            | k + 3 => rw [hm] at d5; simp at d5
          subst hobj
          rw [hknown] at d1
          have d6 : ownerAfter n (ess.flatten ++ es1) id = some 0 := by
            rw [hess]
            exact d1
          rw [d6] at k2
          unfold Activity.text at k2
          have k2 := List.append_cancel_right k2
          have k2 := List.append_cancel_right k2
          have k2 := List.append_cancel_right k2
          have k2 := List.append_cancel_right k2
          have k2 := List.append_cancel_left k2
          revert k2
          decide +kernel

end Boxcars.Props
