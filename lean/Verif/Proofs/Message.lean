import Verif.Model.Display
import Verif.Spec.Message
import Verif.Proofs.History
/-!
# Error messages
-/
namespace Boxcars
open Spec

/-! ### Numbers, lists of names -/

theorem displayNat_eq (n : Nat) : displayNat n = (toString n).toList := by
  show Nat.toDigits 10 n = (Nat.repr n).toList
  unfold Nat.repr
  simp

theorem displayInt_eq (i : Int) : displayInt i = decimal i := by
  unfold decimal
  cases i with
  | ofNat m =>
    unfold displayInt
    rw [if_neg (by simp)]
    exact displayNat_eq m
  | negSucc m =>
    unfold displayInt
    rw [if_pos (Int.negSucc_lt_zero m)]
    show '-' :: displayNat (m + 1) = ("-" ++ toString (m + 1)).toList
    rw [displayNat_eq, String.toList_append]
    rfl

theorem join_eq (l : List Str) : Display.join l = commas l := by
  unfold commas
  fun_induction Display.join l with
  | case1 => simp
  | case2 s => simp
  | case3 s ss h ih =>
    rw [ih]
    cases ss with
    | nil => exact absurd rfl h
    | cons a as => simp [Display.t, List.intercalate_cons_cons]

theorem str_le_trans {a b c : Str} (h : a ≤ b) (h' : b ≤ c) : a ≤ c := List.le_trans h h'
theorem str_le_antisymm {a b : Str} (h : a ≤ b) (h' : b ≤ a) : a = b := List.le_antisymm h h'
theorem str_le_total (a b : Str) : a ≤ b ∨ b ≤ a := List.le_total a b

theorem str_lt {a b : Str} (h : a ≤ b) (h' : a ≠ b) : a < b :=
  Classical.byContradiction fun hn => h' (str_le_antisymm h (List.not_lt.1 hn))

theorem strLe_iff (a b : Str) : Display.strLe a b = true ↔ a ≤ b := by
  unfold Display.strLe
  exact strGe_iff b a

theorem mem_insertSorted {l : List Str} {s m : Str} :
    m ∈ Display.insertSorted s l ↔ m = s ∨ m ∈ l := by
  induction l with
  | nil => simp [Display.insertSorted]
  | cons a l ih =>
    unfold Display.insertSorted
    split
    · simp
    · simp only [List.mem_cons, ih]
      exact or_left_comm

theorem insert_sorted {l : List Str} (s : Str) (h : l.Pairwise (· ≤ ·)) :
    (Display.insertSorted s l).Pairwise (· ≤ ·) := by
  induction l with
  | nil => simp [Display.insertSorted]
  | cons a l ih =>
    obtain ⟨h1, h2⟩ := List.pairwise_cons.1 h
    unfold Display.insertSorted
    split
    · rename_i hs
      have hs := (strLe_iff _ _).1 hs
      refine List.pairwise_cons.2 ⟨?_, h⟩
      intro b hb
      rcases List.mem_cons.1 hb with rfl | hb
      · exact hs
      · exact str_le_trans hs (h1 b hb)
    · rename_i hs
      rw [strLe_iff] at hs
      refine List.pairwise_cons.2 ⟨?_, ih h2⟩
      intro b hb
      rcases mem_insertSorted.1 hb with rfl | hb
      · exact (str_le_total _ _).resolve_left hs
      · exact h1 b hb

theorem sort_sorted (l : List Str) : (Display.sort l).Pairwise (· ≤ ·) := by
  induction l with
  | nil => exact .nil
  | cons a l ih => exact insert_sorted a ih

theorem mem_sort {l : List Str} {m : Str} : m ∈ Display.sort l ↔ m ∈ l := by
  induction l with
  | nil => exact Iff.rfl
  | cons a l ih =>
    show m ∈ Display.insertSorted a (Display.sort l) ↔ _
    rw [mem_insertSorted, ih, List.mem_cons]

theorem mem_dedup {l : List Str} {m : Str} : m ∈ Display.dedup l ↔ m ∈ l := by
  fun_induction Display.dedup l with
  | case1 => simp
  | case2 s => simp
  | case3 s ss ih =>
    rw [ih]
    simp
  | case4 s s' ss h ih =>
    rw [List.mem_cons, ih, List.mem_cons (a := m) (b := s)]

theorem dedup_sorted {l : List Str} (h : l.Pairwise (· ≤ ·)) :
    (Display.dedup l).Pairwise (· < ·) := by
  fun_induction Display.dedup l with
  | case1 => simp
  | case2 s => simp
  | case3 s ss ih => exact ih (List.pairwise_cons.1 h).2
  | case4 s s' ss hne ih =>
    obtain ⟨h1, h2⟩ := List.pairwise_cons.1 h
    refine List.pairwise_cons.2 ⟨?_, ih h2⟩
    intro m hm
    have hm := mem_dedup.1 hm
    refine str_lt (h1 m hm) ?_
    rintro rfl
    have := h1 s' (by simp)
    rcases List.mem_cons.1 hm with h | h
    · exact hne h
    · exact hne (str_le_antisymm this ((List.pairwise_cons.1 h2).1 _ h))

theorem listing_of (l : List Str) : Listing (· ∈ l) (Display.dedup (Display.sort l)) :=
  ⟨dedup_sorted (sort_sorted l), fun m => by rw [mem_dedup, mem_sort]⟩

/-- A listing is determined by the property. -/
theorem listing_unique {P : Str → Prop} {l l' : List Str} (h : Listing P l) (h' : Listing P l') :
    l = l' := by
  have irr : ∀ a : Str, ¬a < a := fun a h => absurd h (List.not_lt.2 (List.le_refl a))
  have asym : ∀ a b : Str, a < b → ¬b < a := fun a b h k => irr a (List.lt_trans h k)
  have nd : ∀ {l : List Str}, l.Pairwise (· < ·) → l.Nodup := fun h =>
    h.imp fun {a b} h => by intro e; subst e; exact irr _ h
  have hp : l.Perm l' := (List.perm_ext_iff_of_nodup (nd h.sorted) (nd h'.sorted)).2
    fun m => by rw [h.mem, h'.mem]
  exact hp.eq_of_pairwise (fun a b _ _ h k => absurd k (asym a b h)) h.sorted h'.sorted

/-! ### Reasons -/

/-- What the kind of error says about the tables. -/
def Why (n : Net) : FrameError → Prop
  | .missingCache _ o => n.spawn o ≠ none ∧ n.cls o = none
  | .missingAttribute _ o s => ∃ c, n.cls o = some c ∧
      (c.attr s = none ∨ ∃ ob, c.attr s = some (.notImplemented, ob))
  | .attributeError _ o s _ => ∃ c tag ob, n.cls o = some c ∧ c.attr s = some (tag, ob) ∧
      tag ≠ .notImplemented
  | .objectIdOutOfRange o => n.spawn o = none
  | _ => True

theorem props_why {n : Net} {A : AttrRel} {c' : Ctx} {X : AttrFail} (hX : AttrErrors c' X)
    {c : ClassDef} {id : ActorId} {obj : ObjectId} (hc : n.cls obj = some c)
    {us : List UpdatedAttribute} {e : FrameError} {i : Bits}
    (h : PropsFail A X c id obj us e i) : Why n e := by
  induction h with
  | flag => trivial
  | streamId => trivial
  | undeclared _ h => exact ⟨c, hc, .inl h⟩
  | unimplemented _ h hx =>
    have := (hX.unimplemented _ _).1 hx
    subst this
    exact ⟨c, hc, .inr ⟨_, h⟩⟩
  | value _ h hx hne =>
    refine ⟨c, _, _, hc, h, ?_⟩
    rintro rfl
    exact hne (hX.unique _ _ _ _ hx ((hX.unimplemented _ _).2 rfl))
  | next _ _ _ _ ih => exact ih

theorem event_why {n : Net} {A : AttrRel} {c' : Ctx} {X : AttrFail} (hX : AttrErrors c' X)
    {known : Known} {us : List UpdatedAttribute} {e : FrameError} {i : Bits}
    (h : EventFail n A X known us e i) : Why n e := by
  cases h with
  | actor => trivial
  | isNew => trivial
  | announce _ h =>
    cases h with
    | short => trivial
    | object _ h => exact h
    | place => trivial
  | classless _ h hc =>
    obtain ⟨_, _, sp, _, _, h, _⟩ := h
    exact ⟨by rw [h]; simp, hc⟩
  | unknown => trivial
  | props _ _ hc h => exact props_why hX hc h

theorem events_why {n : Net} {A : AttrRel} {c' : Ctx} {X : AttrFail} (hX : AttrErrors c' X)
    {known : Known} {es : List Event} {us : List UpdatedAttribute} {e : FrameError} {i : Bits}
    (h : EventsFail n A X known es us e i) : Why n e := by
  induction h with
  | flag => trivial
  | event h => exact event_why hX h
  | next _ _ _ ih => exact ih

theorem frame_why {n : Net} {A : AttrRel} {c' : Ctx} {X : AttrFail} (hX : AttrErrors c' X)
    {known : Known} {es : List Event} {us : List UpdatedAttribute} {e : FrameError} {i : Bits}
    (h : FrameFail n A X known es us e i) : Why n e := by
  cases h with
  | time => trivial
  | timeRange => trivial
  | delta => trivial
  | deltaRange => trivial
  | records _ _ _ h => exact events_why hX h

/-- The reported table describes the classes. -/
theorem table_class {body : ReplayBody} (hl : body.objects.length ≤ 2 ^ 31)
    (hr : InRange body.objects body.netCache) :
    (tableOf body).length = body.objects.length ∧
    ∀ o cd, ClassOf body o cd ↔ ∃ ci, nth (tableOf body) o = some (some ci) ∧ ci.cls = cd := by
  obtain ⟨spawns, hs, _⟩ := spawnTable_run (ε := NetworkError) Env.default64 body.objects hl
  obtain ⟨caches, hc, hlen, _⟩ := cacheTable_run Env.default64 body.objects hl body.netCache hr
  have ht : tableOf body = caches := by unfold tableOf; rw [hc]
  rw [ht]
  refine ⟨hlen, fun o cd => ?_⟩
  have := (frameDecoder_of Env.default64 ⟨0, 0, none, [], []⟩ body 0 hl hs hr hc).2.cls o cd
  rw [← this]
  exact FrameDecoder.cls_eq_some

theorem attr_inRange {body : ReplayBody} (hr : InRange body.objects body.netCache) {o : ObjectId}
    {c : ClassDef} (hc : ClassOf body o c) {s : StreamId} {tag : AttributeTag} {ob : ObjectId}
    (h : c.attr s = some (tag, ob)) :
    tag = attrType body.objects ob ∧ ∃ m, body.objects[ob.toNat]? = some m := by
  obtain ⟨n, ns, _, _, _, ha, _⟩ := hc
  rw [ha s] at h
  obtain ⟨p, hp, he⟩ := Option.map_eq_some_iff.1 h
  cases he
  refine ⟨rfl, ?_⟩
  unfold inherited at hp
  obtain ⟨m, _, hm⟩ := List.exists_of_findSome?_eq_some hp
  obtain ⟨i, _, hd⟩ := Option.bind_eq_some_iff.1 hm
  have hd := List.mem_of_find?_eq_some hd
  rw [List.mem_reverse] at hd
  unfold declarations at hd
  obtain ⟨cl, hcl, hp⟩ := List.mem_flatMap.1 hd
  have := hr cl (List.mem_filter.1 hcl).1 p hp
  exact ⟨_, List.getElem?_eq_getElem this.2⟩

theorem attributes_typed : attributesTable.all (fun p => decide (p.2 ≠ .notImplemented)) = true := by
  decide +kernel

/-- An attribute is of unknown type exactly if its name is not in the data table. -/
theorem unknown_iff {objects : List Str} {ob : ObjectId} {m : Str}
    (h : objects[ob.toNat]? = some m) :
    attrType objects ob = .notImplemented ↔ attributeTag m = none := by
  unfold attrType
  rw [h, Option.bind_some]
  cases ht : attributeTag m with
  | none => simp
  | some tag =>
    unfold attributeTag at ht
    have := List.all_eq_true.1 attributes_typed _ (lookup_mem ht)
    simp at this
    simp [this]

theorem nameOf_eq {body : ReplayBody} {ctx : FrameContext} (hl : body.objects.length ≤ 2 ^ 31)
    (ho : ctx.objects = body.objects) {o : ObjectId} {m : Str} :
    Display.nameOf ctx o = some m ↔ body.objects[o.toNat]? = some m := by
  rw [← nth_eq_some hl, ← ho]
  rfl

theorem cacheOf_eq (ctx : FrameContext) (o : ObjectId) (ci : CacheInfo) :
    Display.cacheOf ctx o = some ci ↔ nth ctx.objectAttributes o = some (some ci) := by
  unfold Display.cacheOf nth
  split
  · rw [Option.join_eq_some_iff]
  · simp

theorem withStream_iff {body : ReplayBody} {ctx : FrameContext} (hl : body.objects.length ≤ 2 ^ 31)
    (hr : InRange body.objects body.netCache) (ht : ctx.objectAttributes = tableOf body)
    {s : StreamId} {a : ObjectAttribute} :
    a ∈ Display.withStream ctx s ↔
      ∃ o c, ClassOf body o c ∧ c.attr s = some (a.attr, a.objectId) := by
  obtain ⟨hlen, hcls⟩ := table_class hl hr
  unfold Display.withStream
  rw [ht, List.mem_filterMap]
  have hattr : ∀ (ci : CacheInfo), ci.attributes.get s = some a ↔
      ci.cls.attr s = some (a.attr, a.objectId) := by
    intro ci
    show _ ↔ (ci.attributes.get s).map _ = _
    cases ci.attributes.get s with
    | none => simp
    | some b => cases a; cases b; simp
  constructor
  · rintro ⟨ci, hci, hg⟩
    obtain ⟨x, hx, he⟩ := List.mem_filterMap.1 hci
    simp only [id_eq] at he
    subst he
    obtain ⟨i, hi, hx⟩ := List.mem_iff_getElem.1 hx
    have hn : (BitVec.ofNat 32 i).toNat = i := by
      rw [BitVec.toNat_ofNat]; exact Nat.mod_eq_of_lt (by omega)
    refine ⟨BitVec.ofNat 32 i, ci.cls, (hcls _ _).2 ⟨ci, ?_, rfl⟩, (hattr ci).1 hg⟩
    rw [nth_eq_some (by omega), hn, List.getElem?_eq_getElem hi, hx]
  · rintro ⟨o, c, hc, hg⟩
    obtain ⟨ci, h1, rfl⟩ := (hcls _ _).1 hc
    rw [nth_eq_some (by omega)] at h1
    exact ⟨ci, List.mem_filterMap.2 ⟨_, List.mem_of_getElem? h1, rfl⟩, (hattr ci).2 hg⟩

theorem candidates_of {body : ReplayBody} {ctx : FrameContext} (hl : body.objects.length ≤ 2 ^ 31)
    (hr : InRange body.objects body.netCache) (ho : ctx.objects = body.objects)
    (ht : ctx.objectAttributes = tableOf body) (s : StreamId) :
    Listing (Declares body s) (Display.attrNames ctx s) ∧
    Listing (fun m => Declares body s m ∧ attributeTag m = none)
      (Display.unknownNames (Display.attrNames ctx s)) := by
  have h1 : Listing (Declares body s) (Display.attrNames ctx s) := by
    have h := listing_of ((Display.withStream ctx s).filterMap (fun a => Display.nameOf ctx a.objectId))
    refine ⟨h.sorted, fun m => ?_⟩
    show m ∈ Display.dedup (Display.sort _) ↔ _
    rw [h.mem, List.mem_filterMap]
    constructor
    · rintro ⟨a, h2, h3⟩
      obtain ⟨o, c, h4, h5⟩ := (withStream_iff hl hr ht).1 h2
      exact ⟨o, c, _, _, h4, h5, (nameOf_eq hl ho).1 h3⟩
    · rintro ⟨o, c, tag, ob, h4, h5, h6⟩
      exact ⟨⟨tag, ob⟩, (withStream_iff hl hr ht).2 ⟨o, c, h4, h5⟩, (nameOf_eq hl ho).2 h6⟩
  refine ⟨h1, ?_⟩
  have h := listing_of ((Display.attrNames ctx s).filter (fun n => (attributeTag n).isNone))
  refine ⟨h.sorted, fun m => ?_⟩
  show m ∈ Display.dedup (Display.sort _) ↔ _
  rw [h.mem, List.mem_filter, h1.mem, Option.isNone_iff_eq_none]

/-- The reason given is right. -/
theorem reason_of (f : Display.Fmt) {h : Header} {body : ReplayBody} {c : Ctx} {n : Net}
    {ctx : FrameContext}
    (hl : body.objects.length ≤ 2 ^ 31) (hr : InRange body.objects body.netCache)
    (ho : ctx.objects = body.objects) (ht : ctx.objectAttributes = tableOf body)
    (hn : NetOf h body c n) {e : FrameError} (hw : Why n e) :
    Reason f.tag body e (Display.contextualize f e ctx) := by
  obtain ⟨hlen, hcls⟩ := table_class hl hr
  have hname : ∀ {o : ObjectId} {c}, n.cls o = some c → ∃ m, body.objects[o.toNat]? = some m := by
    intro o c hc
    obtain ⟨m, _, h1, _⟩ := (hn.cls _ _).1 hc
    exact ⟨m, h1.1⟩
  have hcand : ∀ s, Candidates body s
      (Display.t "searching all attributes with the same stream id, "
      ++ (Display.t "unknown attributes: [" ++ Display.join (Display.unknownNames (Display.attrNames ctx s)) ++ Display.t "], ")
      ++ (Display.t "all attributes with that stream id: ["
        ++ Display.join ((Display.attrNames ctx s).map (fun n => Display.t "(" ++ n ++ Display.t ")")) ++ Display.t "]. ")) := by
    intro s
    obtain ⟨c1, c2⟩ := candidates_of hl hr ho ht s
    have := Candidates.mk c1 c2
    rw [join_eq, join_eq]
    simpa only [Display.t, List.append_assoc] using this
  have hcache : ∀ {o : ObjectId} {c : ClassDef} (s : StreamId), n.cls o = some c →
      ((Display.cacheOf ctx o).bind (fun c => c.attributes.get s)).map
        (fun a => (a.attr, a.objectId)) = c.attr s := by
    intro o c s hc
    obtain ⟨ci, h1, rfl⟩ := (hcls _ _).1 ((hn.cls _ _).1 hc)
    rw [(cacheOf_eq ctx o ci).2 (by rw [ht]; exact h1)]
    rfl
  cases e with
  | notEnoughDataFor => exact .short
  | timeOutOfRange => exact .time
  | deltaOutOfRange => exact .delta
  | objectIdOutOfRange o =>
    refine .object fun m hm => ?_
    have hw : n.spawn o = none := hw
    obtain ⟨ns, hns, _⟩ := lineage_exists m
    by_cases hf : FirstAt body.objects m o.toNat
    · rw [(hn.spawn o _).2 ⟨m, hm, .inl ⟨hf, ns, hns, rfl⟩⟩] at hw
      cases hw
    · rw [(hn.spawn o _).2 ⟨m, hm, .inr ⟨hf, rfl⟩⟩] at hw
      cases hw
  | missingActor => exact .actor
  | missingCache a o =>
    obtain ⟨h1, h2⟩ := hw
    cases hs : n.spawn o with
    | none => exact absurd hs h1
    | some sp =>
      obtain ⟨m, hm, _⟩ := (hn.spawn _ _).1 hs
      have : Display.contextualize f (.missingCache a o) ctx = "(".toList ++ m ++ ")".toList := by
        unfold Display.contextualize
        simp only
        rw [(nameOf_eq hl ho).2 hm]
        rfl
      rw [this]
      refine .classless hm fun c hc => ?_
      rw [(hn.cls _ _).2 hc] at h2
      cases h2
  | missingAttribute a o s =>
    obtain ⟨cd, h1, h2⟩ := hw
    obtain ⟨m, hm⟩ := hname h1
    have hg := hcache s h1
    have hC := (hn.cls _ _).1 h1
    unfold Display.contextualize
    simp only
    rcases h2 with h2 | ⟨ob, h2⟩
    · rw [h2, Option.map_eq_none_iff] at hg
      rw [hg, (nameOf_eq hl ho).2 hm]
      have := Reason.undeclared (tagName := f.tag) (a := a) hm hC h2 (hcand s)
      rw [← displayInt_eq] at this
      simpa only [Display.t, List.append_assoc, Option.getD_some, Display.i32] using this
    · rw [h2, Option.map_eq_some_iff] at hg
      obtain ⟨⟨tg, ob'⟩, h3, h4⟩ := hg
      cases h4
      rw [h3]
      obtain ⟨h5, m', h6⟩ := attr_inRange hr hC h2
      simp only [ne_eq, not_true_eq_false, if_false]
      rw [(nameOf_eq hl ho).2 h6]
      exact .unimplemented hC h2 h6 ((unknown_iff h6).1 h5.symm)
  | attributeError a o s x =>
    obtain ⟨cd, tag, ob, h1, h2, h3⟩ := hw
    obtain ⟨m, hm⟩ := hname h1
    have hg := hcache s h1
    have hC := (hn.cls _ _).1 h1
    unfold Display.contextualize
    simp only
    rw [h2, Option.map_eq_some_iff] at hg
    obtain ⟨⟨tg, ob'⟩, h4, h5⟩ := hg
    cases h5
    rw [h4]
    simp only
    rw [if_pos h3, (nameOf_eq hl ho).2 hm]
    have := Reason.value (tagName := f.tag) (a := a) (e := x) hm hC h2 h3 (hcand s)
    simpa only [Display.t, List.append_assoc, Option.getD_some] using this

/-! ### The last activity -/

/-- A record whose objects are listed and whose updates are of its actor. -/
def EventListed (objects : List Str) : Event → Prop
  | .new a => a.objectId.toNat < objects.length
  | .delete _ => True
  | .update id us => ∀ u ∈ us, u.actorId = id ∧ u.objectId.toNat < objects.length

section
variable {h : Header} {body : ReplayBody} {c : Ctx} {n : Net} {A : AttrRel} {X : AttrFail}

theorem lt_of_some {α : Type} {xs : List α} {i : Nat} {a : α} (h : xs[i]? = some a) :
    i < xs.length := (List.getElem?_eq_some_iff.1 h).1

theorem props_listed (hr : InRange body.objects body.netCache) {obj : ObjectId} {cd : ClassDef}
    (hc : ClassOf body obj cd) {id : ActorId} {us : List UpdatedAttribute} {i o : Bits}
    (hp : PropsRel A cd id us i o) : EventListed body.objects (.update id us) := by
  induction hp with
  | done => intro u hu; cases hu
  | prop _ ha _ _ ih =>
    intro u hu
    rcases List.mem_cons.1 hu with rfl | hu
    · obtain ⟨_, m, hm⟩ := attr_inRange hr hc ha
      exact ⟨rfl, lt_of_some hm⟩
    · exact ih u hu

theorem propsFail_listed (hr : InRange body.objects body.netCache) {obj : ObjectId} {cd : ClassDef}
    (hc : ClassOf body obj cd) {id : ActorId} {us : List UpdatedAttribute} {e : FrameError} {i : Bits}
    (hp : PropsFail A X cd id obj us e i) : EventListed body.objects (.update id us) := by
  induction hp with
  | flag => intro u hu; cases hu
  | streamId => intro u hu; cases hu
  | undeclared => intro u hu; cases hu
  | unimplemented => intro u hu; cases hu
  | value => intro u hu; cases hu
  | next _ ha _ _ ih =>
    intro u hu
    rcases List.mem_cons.1 hu with rfl | hu
    · obtain ⟨_, m, hm⟩ := attr_inRange hr hc ha
      exact ⟨rfl, lt_of_some hm⟩
    · exact ih u hu

theorem event_listed (hr : InRange body.objects body.netCache) (hn : NetOf h body c n)
    {known : Known} {ev : Event} {i o : Bits} (he : EventRel n A known ev i o) :
    EventListed body.objects ev := by
  cases he with
  | new _ _ hc =>
    obtain ⟨m, _, h1, _⟩ := (hn.cls _ _).1 hc
    exact lt_of_some h1.1
  | delete => trivial
  | update _ _ hc hp => exact props_listed hr ((hn.cls _ _).1 hc) hp

theorem events_listed (hr : InRange body.objects body.netCache) (hn : NetOf h body c n)
    {known : Known} {es : List Event} {i o : Bits} (he : EventsRel n A known es i o) :
    ∀ ev ∈ es, EventListed body.objects ev := by
  induction he with
  | done => intro ev hev; cases hev
  | event h1 _ ih =>
    intro ev hev
    rcases List.mem_cons.1 hev with rfl | hev
    · exact event_listed hr hn h1
    · exact ih ev hev

theorem frames_listed (hr : InRange body.objects body.netCache) (hn : NetOf h body c n)
    {known k : Known} {fs : List Frame} {ess : List (List Event)} {i j : Bits}
    (he : FramesAt n A known fs ess k i j) : ∀ ev ∈ ess.flatten, EventListed body.objects ev := by
  induction he with
  | nil => intro ev hev; cases hev
  | cons h1 _ ih =>
    obtain ⟨_, _, _, _, _, _, _, _, h1⟩ := h1
    intro ev hev
    rw [List.flatten_cons, List.mem_append] at hev
    rcases hev with hev | hev
    · exact events_listed hr hn h1 ev hev
    · exact ih ev hev

theorem mem_recordsRead {es : List Event} {us : List UpdatedAttribute} {ev : Event}
    (h : ev ∈ recordsRead es us) : ev ∈ es ∨ ∃ u vs, us = u :: vs ∧ ev = .update u.actorId us := by
  cases us with
  | nil => exact .inl h
  | cons u vs =>
    rcases List.mem_append.1 h with h | h
    · exact .inl h
    · exact .inr ⟨u, vs, rfl, List.mem_singleton.1 h⟩

theorem eventFail_listed (hr : InRange body.objects body.netCache) (hn : NetOf h body c n)
    {known : Known} {us : List UpdatedAttribute} {e : FrameError} {i : Bits}
    (he : EventFail n A X known us e i) : ∃ id, EventListed body.objects (.update id us) := by
  cases he with
  | props _ _ hc hp => exact ⟨_, propsFail_listed hr ((hn.cls _ _).1 hc) hp⟩
  | _ => exact ⟨0, fun u hu => by cases hu⟩

theorem eventsFail_listed (hr : InRange body.objects body.netCache) (hn : NetOf h body c n)
    {known : Known} {es : List Event} {us : List UpdatedAttribute} {e : FrameError} {i : Bits}
    (he : EventsFail n A X known es us e i) :
    (∀ ev ∈ es, EventListed body.objects ev) ∧ ∃ id, EventListed body.objects (.update id us) := by
  induction he with
  | flag => exact ⟨fun ev hev => (by cases hev), 0, fun u hu => by cases hu⟩
  | event h => exact ⟨fun ev hev => (by cases hev), eventFail_listed hr hn h⟩
  | next _ h1 _ ih =>
    refine ⟨fun ev hev => ?_, ih.2⟩
    rcases List.mem_cons.1 hev with rfl | hev
    · exact event_listed hr hn h1
    · exact ih.1 ev hev

theorem frameFail_listed (hr : InRange body.objects body.netCache) (hn : NetOf h body c n)
    {known : Known} {es : List Event} {us : List UpdatedAttribute} {e : FrameError} {i : Bits}
    (he : FrameFail n A X known es us e i) :
    ∀ ev ∈ recordsRead es us, EventListed body.objects ev := by
  have key : (∀ ev ∈ es, EventListed body.objects ev) ∧
      ∃ id, EventListed body.objects (.update id us) := by
    cases he with
    | records _ _ _ h => exact eventsFail_listed hr hn h
    | _ => exact ⟨fun ev hev => (by cases hev), 0, fun u hu => by cases hu⟩
  intro ev hev
  rcases mem_recordsRead hev with hev | ⟨u, vs, rfl, rfl⟩
  · exact key.1 ev hev
  · obtain ⟨id, hid⟩ := key.2
    obtain ⟨rfl, _⟩ := hid u (by simp)
    exact hid

theorem afterAll_listed {objects : List Str} {H : List Event} (hH : ∀ ev ∈ H, EventListed objects ev)
    {known : Known} (hk : ∀ id o, known id = some o → o.toNat < objects.length)
    {id : ActorId} {o : ObjectId} (h : known.afterAll n H id = some o) : o.toNat < objects.length := by
  induction H generalizing known with
  | nil => exact hk id o h
  | cons ev H ih =>
    refine ih (fun e he => hH e (List.mem_cons_of_mem _ he)) (known := known.after n ev) ?_ h
    intro id o ho
    cases ev with
    | new a =>
      simp only [Known.after] at ho
      split at ho
      · cases ho; exact hH _ (List.mem_cons_self ..)
      · exact hk _ _ ho
    | delete d =>
      simp only [Known.after] at ho
      split at ho
      · cases ho
      · exact hk _ _ ho
    | update => exact hk _ _ ho
end

/-! ### Splitting records -/

theorem updates_append (a b : List Event) : updates (a ++ b) = updates a ++ updates b := by
  induction a with
  | nil => rfl
  | cons e a ih => cases e <;> simp [updates, ih]

theorem news_append (a b : List Event) : news (a ++ b) = news a ++ news b := by
  induction a with
  | nil => rfl
  | cons e a ih => cases e <;> simp [news, ih]

theorem last_update (es : List Event) : updates es = [] ∨ ∃ es1 id us u es2,
    es = es1 ++ .update id (us ++ [u]) :: es2 ∧ updates es2 = [] ∧
      (updates es).getLast? = some u := by
  induction es with
  | nil => exact .inl rfl
  | cons e es ih =>
    rcases ih with h | ⟨es1, id, us, u, es2, rfl, h1, h2⟩
    · cases e with
      | new a => exact .inl h
      | delete d => exact .inl h
      | update id us =>
        rcases List.eq_nil_or_concat us with rfl | ⟨vs, u, rfl⟩
        · exact .inl h
        · refine .inr ⟨[], id, vs, u, es, by simp, h, ?_⟩
          show (vs.concat u ++ updates es).getLast? = _
          rw [h]
          simp
    · refine .inr ⟨e :: es1, id, us, u, es2, rfl, h1, ?_⟩
      cases e with
      | new a => exact h2
      | delete d => exact h2
      | update i vs =>
        show (vs ++ updates _).getLast? = _
        rw [List.getLast?_append, h2]
        rfl

theorem last_new (es : List Event) : news es = [] ∨ ∃ es1 a es2,
    es = es1 ++ .new a :: es2 ∧ news es2 = [] ∧ (news es).getLast? = some a := by
  induction es with
  | nil => exact .inl rfl
  | cons e es ih =>
    rcases ih with h | ⟨es1, a, es2, rfl, h1, h2⟩
    · cases e with
      | new a =>
        refine .inr ⟨[], a, es, rfl, h, ?_⟩
        show (a :: news es).getLast? = _
        rw [h]
        rfl
      | delete d => exact .inl h
      | update id us => exact .inl h
    · refine .inr ⟨e :: es1, a, es2, rfl, h1, ?_⟩
      cases e with
      | new b =>
        show (b :: news _).getLast? = _
        rw [List.getLast?_cons, h2]
        rfl
      | delete d => exact h2
      | update i vs => exact h2

theorem last_active (ess : List (List Event)) : (∀ q ∈ ess, Quiet q) ∨ ∃ pre es post,
    ess = pre ++ es :: post ∧ (∀ q ∈ post, Quiet q) ∧ ¬Quiet es := by
  induction ess with
  | nil => exact .inl fun q hq => by cases hq
  | cons e ess ih =>
    rcases ih with h | ⟨pre, es, post, rfl, h1, h2⟩
    · by_cases hq : Quiet e
      · left
        intro q hq'
        rcases List.mem_cons.1 hq' with rfl | hq'
        · exact hq
        · exact h q hq'
      · exact .inr ⟨[], e, ess, rfl, h, hq⟩
    · exact .inr ⟨e :: pre, es, post, rfl, h1, h2⟩

theorem records_split {fs : List Frame} {pre post : List (List Event)} {es : List Event}
    (h : Records fs (pre ++ es :: post)) : ∃ a f b, fs = a ++ f :: b ∧ a.length = pre.length ∧
      FrameOfRecords f es ∧ Records b post := by
  induction pre generalizing fs with
  | nil =>
    cases h with
    | cons h1 h2 => exact ⟨[], _, _, rfl, rfl, h1, h2⟩
  | cons p pre ih =>
    cases h with
    | cons h1 h2 =>
      obtain ⟨a, f, b, rfl, h3, h4⟩ := ih h2
      exact ⟨_ :: a, f, b, rfl, by simp [h3], h4⟩

/-- No data in a frame, as tested by `most_recent_frame_with_data`. -/
def quietFrame (f : Frame) : Bool := !(!f.updatedActors.isEmpty || !f.newActors.isEmpty)

theorem quiet_iff {f : Frame} {es : List Event} (h : FrameOfRecords f es) :
    quietFrame f = true ↔ Quiet es := by
  obtain ⟨h1, _, h3⟩ := h
  unfold quietFrame Quiet
  rw [h1, h3]
  simp

theorem records_quiet {fs : List Frame} {ess : List (List Event)} (h : Records fs ess)
    (hq : ∀ q ∈ ess, Quiet q) : ∀ f ∈ fs, quietFrame f = true := by
  induction h with
  | nil => intro f hf; cases hf
  | cons h1 _ ih =>
    intro f hf
    rcases List.mem_cons.1 hf with rfl | hf
    · exact (quiet_iff h1).2 (hq _ (by simp))
    · exact ih (fun q hq' => hq q (List.mem_cons_of_mem _ hq')) f hf

theorem find_quiet {fs : List Frame} (hq : ∀ f ∈ fs, quietFrame f = true) (k : Nat) :
    (fs.zipIdx k).reverse.find? (fun p => !p.1.updatedActors.isEmpty || !p.1.newActors.isEmpty)
      = none := by
  rw [List.find?_eq_none]
  intro p hp
  rw [List.mem_reverse] at hp
  have := hq p.1 (List.fst_mem_of_mem_zipIdx hp)
  unfold quietFrame at this
  simpa using this

theorem mostRecent_none {ctx : FrameContext} (hq : ∀ f ∈ ctx.frames, quietFrame f = true) :
    Display.mostRecent ctx = none := find_quiet hq 0

theorem mostRecent_some {ctx : FrameContext} {a b : List Frame} {f : Frame}
    (hf : ctx.frames = a ++ f :: b) (hq : ∀ g ∈ b, quietFrame g = true)
    (h : quietFrame f = false) : Display.mostRecent ctx = some (f, a.length) := by
  unfold Display.mostRecent
  rw [hf, List.zipIdx_append, List.reverse_append, List.find?_append, List.zipIdx_cons,
    List.reverse_cons, List.find?_append, find_quiet hq]
  unfold quietFrame at h
  simp only [Bool.not_eq_false'] at h
  simp [h]

theorem line_entry (s : String) (v : Str) : Display.line (Display.t s ++ v) = entry s v := rfl

theorem line_entry' (s : String) : Display.line (Display.t s) = entry s [] := by
  unfold Display.line entry Display.t
  simp

theorem objectName_eq {objects : List Str} {ctx : FrameContext} (hl : objects.length ≤ 2 ^ 31)
    (ho : ctx.objects = objects) {o : ObjectId} (h : o.toNat < objects.length) :
    Display.objectName ctx o = nameIn objects o := by
  have hn : Display.nameOf ctx o = some objects[o.toNat] := by
    show nth ctx.objects o = _
    rw [ho, nth_eq_some hl]
    exact List.getElem?_eq_getElem h
  unfold Display.objectName nameIn
  rw [hn, List.getElem?_eq_getElem h]
  rfl

theorem update_text (f : Display.Fmt) {objects : List Str} {ctx : FrameContext}
    (hl : objects.length ≤ 2 ^ 31) (ho : ctx.objects = objects) {u : UpdatedAttribute}
    {owner : Option ObjectId} (hg : ctx.actors.get u.actorId = owner)
    (hL : (Activity.update u owner).Listed objects) :
    Display.update f ctx u = (Activity.update u owner).text f objects := by
  obtain ⟨h1, h2⟩ := hL
  have hd : Display.dashes (Display.t "Last actor update:").length = Display.t "------------------" := by
    decide +kernel
  have h0 : Display.line [] = entry "" [] := rfl
  unfold Display.update Activity.text
  rw [hg, hd, h0, objectName_eq hl ho h1]
  simp only [line_entry, line_entry', Display.i32, displayInt_eq]
  cases owner with
  | none => rfl
  | some o =>
    simp only
    rw [objectName_eq hl ho (h2 o rfl)]

theorem announce_text (f : Display.Fmt) {objects : List Str} {ctx : FrameContext}
    (hl : objects.length ≤ 2 ^ 31) (ho : ctx.objects = objects) {a : NewActor}
    (hL : (Activity.announce a).Listed objects) :
    Display.newActor f ctx a = (Activity.announce a).text f objects := by
  have hd : Display.dashes (Display.t "Last new actor:").length = Display.t "---------------" := by
    decide +kernel
  have h0 : Display.line [] = entry "" [] := rfl
  unfold Display.newActor Activity.text
  rw [hd, h0, objectName_eq hl ho hL]
  simp only [line_entry, line_entry', Display.i32, displayInt_eq]
  cases a.nameId with
  | none => rfl
  | some x =>
    simp only [Option.map_some, Option.getD_some, Display.i32, displayInt_eq]

theorem updates_recordsRead (es : List Event) (us : List UpdatedAttribute) :
    updates (recordsRead es us) = updates es ++ us := by
  cases us with
  | nil => simp [recordsRead]
  | cons u us => simp [recordsRead, updates_append, updates]

theorem news_recordsRead (es : List Event) (us : List UpdatedAttribute) :
    news (recordsRead es us) = news es := by
  cases us with
  | nil => rfl
  | cons u us => simp [recordsRead, news_append, news]

theorem afterAll_recordsRead (n : Net) (known : Known) (es : List Event)
    (us : List UpdatedAttribute) :
    known.afterAll n (recordsRead es us) = known.afterAll n es := by
  cases us with
  | nil => rfl
  | cons u us =>
    show known.afterAll n (es ++ _) = _
    rw [afterAll_append]
    rfl

/-- The text for the last activity of some records. -/
theorem activity_text (f : Display.Fmt) {objects : List Str} {ctx : FrameContext}
    (hl : objects.length ≤ 2 ^ 31) (ho : ctx.objects = objects)
    {es : List Event} (hes : ∀ ev ∈ es, EventListed objects ev)
    {now : Known} (hg : ∀ id, ctx.actors.get id = now id)
    (hnow : ∀ id o, now id = some o → o.toNat < objects.length) (before : List Event)
    (other : Str) (hq : ¬Quiet es) :
    ∃ a, LastActivity (fun _ id => now id) before es a ∧ a.Listed objects ∧
      (match (updates es).getLast?, (news es).getLast? with
        | some u, _ => Display.update f ctx u
        | none, some a => Display.newActor f ctx a
        | none, none => other) = a.text f objects := by
  rcases last_update es with h | ⟨es1, id, us, u, es2, h1, h2, h3⟩
  · rcases last_new es with k | ⟨es1, a, es2, k1, k2, k3⟩
    · exact absurd ⟨h, k⟩ hq
    · have hL : (Activity.announce a).Listed objects := hes (.new a) (by rw [k1]; simp)
      refine ⟨_, .announce h k1 k2, hL, ?_⟩
      rw [h, k3]
      exact announce_text f hl ho hL
  · obtain ⟨k1, k2⟩ := hes (.update id (us ++ [u])) (by rw [h1]; simp) u (by simp)
    have hL : (Activity.update u (now id)).Listed objects := ⟨k2, hnow id⟩
    refine ⟨_, .update h1 h2, hL, ?_⟩
    rw [h3]
    exact update_text f hl ho (by rw [hg, k1]) hL

theorem position_text (f : Display.Fmt) (ctx : FrameContext) :
    Display.line (Display.t "Current frame: " ++ displayNat ctx.frames.length
      ++ Display.t " (time: "
      ++ f.f32 ((ctx.frames.getLast?.map (·.time)).getD F32.zero) ++ Display.t " delta: "
      ++ f.f32 ((ctx.frames.getLast?.map (·.delta)).getD F32.zero) ++ Display.t ")")
      = positionText f ctx.frames := by
  unfold positionText
  rw [← line_entry, displayNat_eq]
  simp only [List.append_assoc]
  cases ctx.frames.getLast? <;> rfl

theorem context_update (f : Display.Fmt) {objects : List Str} {ctx : FrameContext}
    (hl : objects.length ≤ 2 ^ 31) (ho : ctx.objects = objects) {u : UpdatedAttribute}
    (hu : ctx.updatedActors.getLast? = some u)
    {owner : Option ObjectId} (hg : ctx.actors.get u.actorId = owner)
    (hL : (Activity.update u owner).Listed objects) :
    Display.context f ctx =
      positionText f ctx.frames ++ (Activity.update u owner).text f objects := by
  unfold Display.context
  rw [position_text, hu]
  simp only
  rw [update_text f hl ho hg hL]

theorem activity_of (f : Display.Fmt) {h : Header} {body : ReplayBody} {c : Ctx} {n : Net}
    {A : AttrRel} {X : AttrFail} {fs : List Frame} {ess : List (List Event)} {known : Known}
    {es : List Event} {us : List UpdatedAttribute} {e : FrameError} {i j : Bits}
    {ctx : FrameContext}
    (hl : body.objects.length ≤ 2 ^ 31) (hr : InRange body.objects body.netCache)
    (hn : NetOf h body c n) (hf : FramesAt n A Known.none fs ess known i j)
    (he : FrameFail n A X known es us e j)
    (hc : ContextOf n body.objects fs known es us ctx) :
    ∃ txt, ActivityText f body.objects
        (fun _ id => Known.none.afterAll n (ess.flatten ++ recordsRead es us) id) fs ess
        (recordsRead es us) txt ∧
      Display.context f ctx = positionText f fs ++ txt := by
  obtain ⟨hk, hrec⟩ := framesAt_known hf
  have hlf := frames_listed hr hn hf
  have hle := frameFail_listed hr hn he
  have hnowEq : Known.none.afterAll n (ess.flatten ++ recordsRead es us) = known.afterAll n es := by
    rw [afterAll_append, ← hk, afterAll_recordsRead]
  have hnow : ∀ id o, known.afterAll n es id = some o → o.toNat < body.objects.length := by
    intro id o ho
    rw [← hnowEq] at ho
    refine afterAll_listed (fun ev hev => ?_) (fun id o h => by cases h) ho
    rcases List.mem_append.1 hev with hev | hev
    · exact hlf ev hev
    · exact hle ev hev
  have hg : ∀ id, ctx.actors.get id = known.afterAll n es id := by
    intro id
    apply Option.ext
    intro o
    rw [← hc.actors, HMap.mem_iff_get hc.sorted]
  rw [hnowEq]
  have hpos := position_text f ctx
  rw [hc.frames] at hpos
  unfold Display.context
  rw [hc.frames, hpos, hc.updatedActors, hc.newActors, ← updates_recordsRead, ← news_recordsRead es us]
  by_cases hq : Quiet (recordsRead es us)
  · rw [hq.1, hq.2]
    simp only [List.getLast?_nil]
    rcases last_active ess with h | ⟨pre, esi, post, rfl, h1, h2⟩
    · refine ⟨_, .none hq h, ?_⟩
      rw [mostRecent_none (by rw [hc.frames]; exact records_quiet hrec h), line_entry', List.append_nil]
    · obtain ⟨a, fr, b, rfl, hla, hfr, hb⟩ := records_split hrec
      rw [mostRecent_some hc.frames (records_quiet hb h1)
        (Bool.eq_false_iff.2 fun k => h2 ((quiet_iff hfr).1 k))]
      simp only
      rw [hfr.1, hfr.2.2]
      obtain ⟨act, k1, k2, k3⟩ := activity_text f hl hc.objects (es := esi)
        (fun ev hev => hlf ev (by simp [hev])) hg hnow pre.flatten
        (Display.line (Display.t "- No actor information decoded")) h2
      refine ⟨_, .retrace hq rfl h1 (f := fr) (by rw [← hla]; simp) k1 k2, ?_⟩
      rw [← k3, line_entry', hla, displayNat_eq]
      unfold entry Display.line decimal
      simp only [List.append_assoc, Display.t]
      rfl
  · obtain ⟨act, k1, k2, k3⟩ := activity_text f hl hc.objects hle hg hnow ess.flatten
      (Display.line (Display.t "- No actor information decoded")
          ++ (match Display.mostRecent ctx with
              | none => []
              | some (frame, i) =>
                Display.line (Display.t "Retrace frame: " ++ displayNat i ++ Display.t " (time: " ++ f.f32 frame.time
                  ++ Display.t ", delta: " ++ f.f32 frame.delta ++ Display.t ")")
                ++ (match frame.updatedActors.getLast?, frame.newActors.getLast? with
                    | some u, _ => Display.update f ctx u
                    | none, some a => Display.newActor f ctx a
                    | none, none => Display.line (Display.t "- No actor information decoded")))) hq
    exact ⟨_, .current k1 k2, by rw [← k3]; rfl⟩

theorem afterAll_untouched {n : Net} {id : ActorId} {H : List Event}
    (h : ∀ ev ∈ H, ¬Touches id ev) (known : Known) : known.afterAll n H id = known id := by
  induction H generalizing known with
  | nil => rfl
  | cons ev H ih =>
    show Known.afterAll n (known.after n ev) H id = _
    rw [ih (fun e he => h e (List.mem_cons_of_mem _ he))]
    have hev := h ev (List.mem_cons_self ..)
    cases ev with
    | new a =>
      simp only [Known.after]
      rw [if_neg (fun he => hev he.symm)]
    | delete d =>
      simp only [Known.after]
      rw [if_neg (fun he => hev he.1.symm)]
    | update => rfl

theorem updates_quiet {ess : List (List Event)} (h : ∀ q ∈ ess, Quiet q) :
    updates ess.flatten = [] := by
  induction ess with
  | nil => rfl
  | cons e ess ih =>
    rw [List.flatten_cons, updates_append, (h e (by simp)).1,
      ih (fun q hq => h q (List.mem_cons_of_mem _ hq))]
    rfl

/-- Without later announcements and deletions of the actor last updated, the object it has at
the end is the one it had when updated. -/
theorem activityText_true {F : Display.Fmt} {objects : List Str} {n : Net} {fs : List Frame}
    {ess : List (List Event)} {es : List Event} {txt : Str}
    (hq : ∀ before id us after, ess.flatten ++ es = before ++ .update id us :: after → us ≠ [] →
      updates after = [] → ∀ ev ∈ after, ¬Touches id ev)
    (h : ActivityText F objects (fun _ id => Known.none.afterAll n (ess.flatten ++ es) id) fs ess es
      txt) :
    ActivityText F objects (fun before id => Known.none.afterAll n before id) fs ess es txt := by
  have key : ∀ {before es' after : List Event} {a : Activity}, ess.flatten ++ es = before ++ es' ++ after →
      updates after = [] →
      LastActivity (fun _ id => Known.none.afterAll n (ess.flatten ++ es) id) before es' a →
      LastActivity (fun before id => Known.none.afterAll n before id) before es' a := by
    intro before es' after a hsplit hup hl
    cases hl with
    | announce h1 h2 h3 => exact .announce h1 h2 h3
    | @update es1 id us u es2 h1 h2 =>
      have e1 : ess.flatten ++ es = (before ++ es1) ++ .update id (us ++ [u]) :: (es2 ++ after) := by
        rw [hsplit, h1]; simp
      have := hq _ _ _ _ e1 (by simp) (by rw [updates_append, h2, hup]; rfl)
      have e2 : Known.none.afterAll n (ess.flatten ++ es) id =
          Known.none.afterAll n (before ++ es1) id := by
        rw [e1, afterAll_append]
        show Known.afterAll n (Known.afterAll n Known.none (before ++ es1)) (es2 ++ after) id = _
        exact afterAll_untouched this _
      simp only [e2]
      exact .update (owner := fun before id => Known.none.afterAll n before id) h1 h2
  cases h with
  | current h1 h2 => exact .current (key (after := []) (by simp) rfl h1) h2
  | @retrace pre esi post f a h1 h2 h3 h4 h5 h6 =>
    refine .retrace h1 h2 h3 h4 (key (after := post.flatten ++ es) ?_ ?_ h5) h6
    · rw [h2]; simp
    · rw [updates_append, updates_quiet h3, h1.1]; rfl
  | none h1 h2 => exact .none h1 h2

/-- The records read of a failing frame were well formed when read. -/
theorem eventsFail_split {n : Net} {A : AttrRel} {X : AttrFail} {known : Known} {es : List Event}
    {us : List UpdatedAttribute} {e : FrameError} {i : Bits} (h : EventsFail n A X known es us e i) :
    (∀ before ev after, es = before ++ ev :: after →
      ∃ j k, EventRel n A (known.afterAll n before) ev j k) ∧
    ∃ j, us ≠ [] → EventFail n A X (known.afterAll n es) us e j := by
  induction h with
  | flag => exact ⟨fun b ev a h => by simp at h, [], fun h => absurd rfl h⟩
  | event h => exact ⟨fun b ev a h => by simp at h, _, fun _ => h⟩
  | @next known ev es us e i j h0 h1 _ ih =>
    refine ⟨fun b ev' a h => ?_, ih.2⟩
    cases b with
    | nil =>
      simp only [List.nil_append, List.cons.injEq] at h
      obtain ⟨rfl, rfl⟩ := h
      exact ⟨_, _, h1⟩
    | cons b0 b =>
      simp only [List.cons_append, List.cons.injEq] at h
      obtain ⟨rfl, h⟩ := h
      exact ih.1 b ev' a h

theorem propsRel_declared {A : AttrRel} {cd : ClassDef} {id : ActorId}
    {us : List UpdatedAttribute} {i o : Bits} (hp : PropsRel A cd id us i o) :
    ∀ u ∈ us, ∃ tag, cd.attr u.streamId = some (tag, u.objectId) := by
  induction hp with
  | done => intro u hu; cases hu
  | prop _ ha _ _ ih =>
    intro u hu
    rcases List.mem_cons.1 hu with rfl | hu
    · exact ⟨_, ha⟩
    · exact ih u hu

theorem propsFail_declared {A : AttrRel} {X : AttrFail} {cd : ClassDef} {id : ActorId}
    {obj : ObjectId} {us : List UpdatedAttribute} {e : FrameError} {i : Bits}
    (hp : PropsFail A X cd id obj us e i) :
    ∀ u ∈ us, ∃ tag, cd.attr u.streamId = some (tag, u.objectId) := by
  induction hp with
  | next _ ha _ _ ih =>
    intro u hu
    rcases List.mem_cons.1 hu with rfl | hu
    · exact ⟨_, ha⟩
    · exact ih u hu
  | _ => intro u hu; cases hu

theorem append_singleton_split {α : Type} {es before after : List α} {x y : α}
    (h : es ++ [x] = before ++ y :: after) :
    (∃ after', es = before ++ y :: after') ∨ (es = before ∧ x = y) := by
  rcases List.eq_nil_or_concat after with rfl | ⟨a, z, rfl⟩
  · right
    have := List.append_inj' h rfl
    exact ⟨this.1, by simpa using this.2⟩
  · left
    refine ⟨a, ?_⟩
    have e : before ++ y :: a.concat z = (before ++ y :: a) ++ [z] := by simp
    rw [e] at h
    exact (List.append_inj' h rfl).1

/-- An update that was read belongs to the class of the object its actor then had. -/
theorem update_declared {n : Net} {A : AttrRel} {X : AttrFail} {known : Known} {es : List Event}
    {us : List UpdatedAttribute} {e : FrameError} {i : Bits} (h : FrameFail n A X known es us e i)
    {before after : List Event} {id : ActorId} {vs : List UpdatedAttribute}
    (hs : recordsRead es us = before ++ .update id vs :: after) (hv : vs ≠ []) :
    ∃ obj cd, known.afterAll n before id = some obj ∧ n.cls obj = some cd ∧
      ∀ u ∈ vs, ∃ tag, cd.attr u.streamId = some (tag, u.objectId) := by
  cases h with
  | records _ _ _ h =>
    obtain ⟨h1, j, h2⟩ := eventsFail_split h
    have whole : ∀ after', es = before ++ .update id vs :: after' →
        ∃ obj cd, known.afterAll n before id = some obj ∧ n.cls obj = some cd ∧
          ∀ u ∈ vs, ∃ tag, cd.attr u.streamId = some (tag, u.objectId) := by
      intro after' he
      obtain ⟨_, _, hr⟩ := h1 _ _ _ he
      cases hr with
      | update _ hk hc hp => exact ⟨_, _, hk, hc, propsRel_declared hp⟩
    cases us with
    | nil => exact whole _ hs
    | cons u us =>
      rcases append_singleton_split hs with ⟨after', he⟩ | ⟨rfl, he⟩
      · exact whole _ he
      · simp only [Event.update.injEq] at he
        obtain ⟨he, rfl⟩ := he
        have hf := h2 (by simp)
        cases hf with
        | @props id' obj cd us' e' i' j' _ hk hc hp =>
          have hid : u.actorId = id' := by
            cases hp with
            | next => rfl
          subst hid
          rw [he] at hk
          exact ⟨_, _, hk, hc, propsFail_declared hp⟩
  | _ =>
    exfalso
    have := congrArg List.length hs
    simp [recordsRead] at this

end Boxcars
