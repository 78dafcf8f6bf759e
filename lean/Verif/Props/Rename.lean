import Verif.Spec.Rename
import Verif.Props.Extend
/-!
# C104: names that nothing refers to do not matter
-/
namespace Boxcars.Props
open Boxcars Spec

variable {D : Nat → Prop} {b b' : ReplayBody}

theorem renamed_get (h : Renamed D b b') {x : Str} (hx : ¬Touched D b b' x) (i : Nat) :
    b.objects[i]? = some x ↔ b'.objects[i]? = some x := by
  by_cases hi : D i
  · exact ⟨fun e => absurd ⟨i, hi, .inl e⟩ hx, fun e => absurd ⟨i, hi, .inr e⟩ hx⟩
  · rw [h.same i hi]

theorem renamed_firstAt (h : Renamed D b b') {x : Str} (hx : ¬Touched D b b' x) (i : Nat) :
    FirstAt b.objects x i ↔ FirstAt b'.objects x i := by
  unfold FirstAt
  rw [renamed_get h hx]
  refine and_congr_right fun _ => forall_congr' fun j => imp_congr_right fun _ => ?_
  rw [ne_eq, ne_eq, renamed_get h hx]

theorem renamed_position (h : Renamed D b b') {x : Str} (hx : ¬Touched D b b' x) :
    position b.objects x = position b'.objects x := by
  apply Option.ext
  intro i
  rw [position_iff, position_iff, renamed_firstAt h hx]

theorem renamed_untouched (h : Renamed D b b') {i : Nat} (hi : ¬D i) {m : Str} (hm : b.objects[i]? = some m) :
    ¬Touched D b b' m := fun ht => (h.others m ht i m hi hm).1 rfl

theorem renamed_lineage (h : Renamed D b b') {i : Nat} (hi : ¬D i) {m : Str} (hm : b.objects[i]? = some m)
    {ns : List Str} (hns : Lineage m ns) {x : Str} (hx : x ∈ ns) : ¬Touched D b b' x :=
  fun ht => (h.others x ht i m hi hm).2 ns hns hx

theorem renamed_classOf (h : Renamed D b b') {o : ObjectId} (ho : ¬D o.toNat) (c : ClassDef) :
    ClassOf b o c ↔ ClassOf b' o c := by
  unfold ClassOf
  refine exists_congr fun m => exists_congr fun ns => ?_
  by_cases hm : b.objects[o.toNat]? = some m
  · rw [renamed_firstAt h (renamed_untouched h ho hm)]
    refine and_congr_right fun _ => and_congr_right fun h2 => and_congr_right fun _ => and_congr_left fun _ =>
      forall_congr' fun s => ?_
    have e1 : inherited b.objects b.netCache ns s = inherited b'.objects b'.netCache ns s := by
      unfold inherited
      rw [h.cache]
      refine findSome_congr fun x hx => ?_
      rw [renamed_position h (renamed_lineage h ho hm h2 hx)]
    have e2 : (inherited b.objects b.netCache ns s).map (fun p => (attrType b.objects p.objectInd, p.objectInd)) =
        (inherited b.objects b.netCache ns s).map (fun p => (attrType b'.objects p.objectInd, p.objectInd)) := by
      cases hp : inherited b.objects b.netCache ns s with
      | none => rfl
      | some p =>
        obtain ⟨c, hc, hm⟩ := inherited_mem hp
        show some _ = some _
        unfold attrType
        dsimp only
        rw [h.same _ (h.attrs c hc p hm)]
    rw [e2, e1]
  · have hm' : b'.objects[o.toNat]? ≠ some m := by rw [← h.same _ ho]; exact hm
    exact ⟨fun g => absurd g.1.1 hm, fun g => absurd g.1.1 hm'⟩

theorem renamed_spawnOf (h : Renamed D b b') {o : ObjectId} (ho : ¬D o.toNat) (sp : SpawnTrajectory) :
    SpawnOf b o sp ↔ SpawnOf b' o sp := by
  unfold SpawnOf
  refine exists_congr fun m => ?_
  rw [h.same _ ho]
  refine and_congr_right fun hm => ?_
  rw [← h.same _ ho] at hm
  rw [renamed_firstAt h (renamed_untouched h ho hm)]
  refine or_congr (and_congr_right fun _ => exists_congr fun ns => and_congr_right fun h2 => ?_) Iff.rfl
  have : Spec.spawnOf b.objects ns = Spec.spawnOf b'.objects ns := by
    unfold Spec.spawnOf
    congr 1
    refine findSome_congr fun x hx => ?_
    rw [renamed_position h (renamed_lineage h ho hm h2 hx)]
  rw [this]

theorem renamed_ctxOf (h : Renamed D b b') {hd : Header} {c : Ctx} : CtxOf hd b c ↔ CtxOf hd b' c := by
  have e : ∀ k : String, k.toList ∈ productKinds → objectNamed b.objects k = objectNamed b'.objects k := by
    intro k hk
    unfold objectNamed
    rw [renamed_position h fun ht => h.products _ ht hk]
  have e1 := e "TAGame.ProductAttribute_UserColor_TA" (by simp [productKinds])
  have e2 := e "TAGame.ProductAttribute_Painted_TA" (by simp [productKinds])
  have e3 := e "TAGame.ProductAttribute_TitleID_TA" (by simp [productKinds])
  have e4 := e "TAGame.ProductAttribute_SpecialEdition_TA" (by simp [productKinds])
  have e5 := e "TAGame.ProductAttribute_TeamEdition_TA" (by simp [productKinds])
  constructor
  · rintro ⟨h1, h2, h3, h4, h5, h6, h7, h8, h9⟩
    exact ⟨h1, h2, h3, e1 ▸ h4, e2 ▸ h5, e3 ▸ h6, e4 ▸ h7, e5 ▸ h8, h9⟩
  · rintro ⟨h1, h2, h3, h4, h5, h6, h7, h8, h9⟩
    exact ⟨h1, h2, h3, e1.symm ▸ h4, e2.symm ▸ h5, e3.symm ▸ h6, e4.symm ▸ h7, e5.symm ▸ h8, h9⟩

theorem renamed_agree (h : Renamed D b b') {hd : Header} {c : Ctx} {n n' : Net} (hn : NetOf hd b c n)
    (hn' : NetOf hd b' c n') : AgreeOn (fun o => ¬D o.toNat) n n' := by
  refine ⟨hn.net.trans hn'.net.symm, hn.channels.trans hn'.channels.symm, ?_, hn.sticky.trans hn'.sticky.symm,
    fun o ho => ?_, fun o ho => ?_⟩
  · rw [Bool.eq_iff_iff, hn.named, hn'.named]
  · apply Option.ext
    intro sp
    rw [hn.spawn, hn'.spawn, renamed_spawnOf h ho]
  · apply Option.ext
    intro sp
    rw [hn.cls, hn'.cls, renamed_classOf h ho]

/-- C104. The names of objects that the frames do not announce, that name no attribute, from which no
other object descends and that name no kind of product make no difference to the frames. -/
theorem renamed_frames (env : Env) (hd : Header) (h : Renamed D b b') (hl : b.objects.length ≤ 2 ^ 31)
    (hn : b.networkData.length < 2 ^ 31) (hcap : b.networkData.length * env.frameSize ≤ env.isizeMax)
    (fs : List Frame) (hf : ∀ f ∈ fs, ∀ a ∈ f.newActors, ¬D a.objectId.toNat) :
    Network.parse env hd b = .ok ⟨fs⟩ ↔ Network.parse env hd b' = .ok ⟨fs⟩ := by
  rw [network_iff env hd b hl hn hcap, network_iff env hd b' (h.length ▸ hl) (h.data ▸ hn) (h.data ▸ hcap)]
  unfold NetworkOf InRange
  rw [h.length, h.cache, h.data]
  refine and_congr_right fun _ => ?_
  cases headerInt hd "NumFrames" with
  | none => exact Iff.rfl
  | some k =>
    refine and_congr_right fun _ => and_congr_right fun _ => ?_
    constructor
    · rintro ⟨c, n, o, hc, hn, hr⟩
      obtain ⟨n', hn'⟩ := netOf_exists hd b' c
      exact ⟨c, n', o, (renamed_ctxOf h).1 hc, hn', framesRel_agree (renamed_agree h hn hn') hr (fun _ _ e => nomatch e) hf⟩
    · rintro ⟨c, n', o, hc, hn', hr⟩
      obtain ⟨n, hn⟩ := netOf_exists hd b c
      exact ⟨c, n, o, (renamed_ctxOf h).2 hc, hn, framesRel_agree (renamed_agree h hn hn').symm hr (fun _ _ e => nomatch e) hf⟩

/-- `ballBody` with another second object. -/
def ballWith (x : String) : ReplayBody := { ballBody with objects := ballBody.objects.set 1 x.toList }

set_option maxRecDepth 100000 in
/-- The second object of these bodies is not needed. -/
theorem ballWith_renamed : Renamed (fun i => i = 1) (ballWith "Some.Thing_TA") (ballWith "Other.Thing_TA") := by
  have ht : ∀ x, Touched (fun i => i = 1) (ballWith "Some.Thing_TA") (ballWith "Other.Thing_TA") x →
      x = "Some.Thing_TA".toList ∨ x = "Other.Thing_TA".toList := by
    rintro x ⟨i, rfl, h | h⟩
    · exact .inl (Option.some.inj h).symm
    · exact .inr (Option.some.inj h).symm
  refine ⟨rfl, rfl, rfl, ?_, ?_, ?_, ?_⟩
  · intro i hi
    show (ballBody.objects.set 1 _)[i]? = (ballBody.objects.set 1 _)[i]?
    rw [List.getElem?_set_ne (fun e => hi e.symm), List.getElem?_set_ne (fun e => hi e.symm)]
  · intro c hc p hp
    cases List.mem_singleton.1 hc
    rcases List.mem_cons.1 hp with rfl | hp
    · decide
    · cases List.mem_singleton.1 hp; decide
  · intro x hx
    rcases ht x hx with rfl | rfl <;> decide +kernel
  · intro x hx i m hi hm
    have hm : (ballBody.objects.set 1 _)[i]? = some m := hm
    rw [List.getElem?_set_ne (fun e => hi e.symm)] at hm
    have h1 := List.mem_of_getElem? hm
    have h2 : "Some.Thing_TA".toList ∉ ballBody.objects ∧ "Other.Thing_TA".toList ∉ ballBody.objects := by
      decide +kernel
    rcases ht x hx with rfl | rfl
    · exact ⟨fun e => h2.1 (e ▸ h1), fun ns hns hx => lineage_names hns _ hx (by decide +kernel)⟩
    · exact ⟨fun e => h2.2 (e ▸ h1), fun ns hns hx => lineage_names hns _ hx (by decide +kernel)⟩

set_option maxRecDepth 100000 in
/-- The frame of the one is the frame of the other, and there is one. -/
example : countOf oneFrame (ballWith "Some.Thing_TA") = some 1 ∧
    ∀ fs : List Frame, (∀ f ∈ fs, ∀ a ∈ f.newActors, a.objectId.toNat ≠ 1) →
      (Network.parse Env.default64 oneFrame (ballWith "Some.Thing_TA") = .ok ⟨fs⟩ ↔
        Network.parse Env.default64 oneFrame (ballWith "Other.Thing_TA") = .ok ⟨fs⟩) :=
  ⟨by decide +kernel, fun fs hf => renamed_frames Env.default64 oneFrame ballWith_renamed (by decide)
    (by decide +kernel) (by decide +kernel) fs hf⟩

end Boxcars.Props
