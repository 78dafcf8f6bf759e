import Verif.Proofs.AttrNames
import Verif.Props.Stream
import Verif.Props.Failure
import Verif.Props.TableSize
/-!
# Files with one class and one attribute
-/
namespace Boxcars.Props
open Boxcars Spec

open Classical in
theorem net_exists (h : Header) (body : ReplayBody) (c : Ctx) : ∃ n, NetOf h body c n := by
  refine ⟨⟨c.net, ((headerInt h "MaxChannels").getD 1023#32).toNat,
    decide (c.atLeast 868 20 0 ∨ (c.atLeast 868 14 0 ∧ headerStr h "MatchType" ≠ some "Lan".toList)),
    200, fun o => if hh : ∃ sp, SpawnOf body o sp then some hh.choose else none,
    fun o => if hh : ∃ cd, ClassOf body o cd then some hh.choose else none⟩,
    rfl, rfl, decide_eq_true_iff, rfl, ?_, ?_⟩
  · intro o sp
    show (if hh : ∃ sp, SpawnOf body o sp then some hh.choose else none) = some sp ↔ _
    split
    · rename_i hh
      exact ⟨fun e => Option.some.inj e ▸ hh.choose_spec,
        fun e => congrArg some (spawnOf_unique hh.choose_spec e)⟩
    · rename_i hh
      exact ⟨fun e => absurd e (by simp), fun e => absurd ⟨_, e⟩ hh⟩
  · intro o cd
    show (if hh : ∃ cd, ClassOf body o cd then some hh.choose else none) = some cd ↔ _
    split
    · rename_i hh
      exact ⟨fun e => Option.some.inj e ▸ hh.choose_spec,
        fun e => congrArg some (classOf_unique hh.choose_spec e)⟩
    · rename_i hh
      exact ⟨fun e => absurd e (by simp), fun e => absurd ⟨_, e⟩ hh⟩

/-- A class of actors without initial location. -/
def probeName : Str := "TAGame.CrowdActor_TA".toList

/-- A class and one more name, any other objects, and an attribute of that name declared for
the class twice, so that stream ids take four bits. -/
def probeBody (name : Str) (more : List Str) (blob : List Byte) : ReplayBody where
  levels := []
  keyframes := []
  debugInfo := []
  tickMarks := []
  packages := []
  objects := probeName :: name :: more
  names := []
  classIndices := []
  netCache := [⟨0, 0, 0, [⟨1, 0⟩, ⟨1, 8⟩]⟩]
  networkData := blob

set_option maxRecDepth 100000 in
theorem probe_lineage : ∃ ns, Lineage probeName (probeName :: ns) := by
  have hp : (parentOf probeName).isSome = true := by decide +kernel
  obtain ⟨p, hp⟩ := Option.isSome_iff_exists.1 hp
  obtain ⟨ns, hn, _⟩ := lineage_exists p
  exact ⟨ns, .step hp hn⟩

set_option maxRecDepth 100000 in
theorem probe_decl : spawnDecl probeName = some .none := by decide +kernel

theorem probe_position (l : List Str) : position (probeName :: l) probeName = some 0 := by
  unfold position
  rw [List.findIdx?_cons, beq_self_eq_true, if_pos rfl]

theorem probe_declared (s : StreamId) (i : Nat) (name : Str) (more : List Str) (blob : List Byte) :
    declared (probeBody name more blob).netCache s i =
      if BitVec.ofNat 32 i = 0 then
        if s = 8 then some ⟨1, 8⟩ else if s = 0 then some ⟨1, 0⟩ else none
      else none := by
  unfold declared declarations probeBody
  by_cases h : BitVec.ofNat 32 i = 0
  · rw [if_pos h, h]
    by_cases h8 : s = 8
    · subst h8; rfl
    rw [if_neg h8]
    by_cases h0 : s = 0
    · subst h0; rfl
    rw [if_neg h0]
    have e8 : ((8 : StreamId) == s) = false := by rw [beq_eq_false_iff_ne]; exact fun e => h8 e.symm
    have e0 : ((0 : StreamId) == s) = false := by rw [beq_eq_false_iff_ne]; exact fun e => h0 e.symm
    show List.find? (fun p : CacheProp => p.streamId == s) [⟨1, 8⟩, ⟨1, 0⟩] = none
    rw [List.find?_cons_of_neg (by rw [e8]; decide), List.find?_cons_of_neg (by rw [e0]; decide)]
    rfl
  · rw [if_neg h]
    have : ((0 : I32) == BitVec.ofNat 32 i) = false := by
      rw [beq_eq_false_iff_ne]; exact fun e => h e.symm
    rw [List.filter_cons_of_neg (by rw [this]; decide)]
    rfl

/-- The class of the first object. -/
def probeClass (tag : AttributeTag) : ClassDef :=
  ⟨9, fun s => if s = 8 ∨ s = 0 then some (tag, 1) else none⟩

theorem probe_class {name : Str} {tag : AttributeTag} (ht : (attributeTag name).getD .notImplemented = tag)
    (more : List Str) (blob : List Byte) : ClassOf (probeBody name more blob) 0 (probeClass tag) := by
  obtain ⟨ns, hns⟩ := probe_lineage
  refine ⟨_, _, ⟨rfl, fun j hj => absurd hj (Nat.not_lt_zero j)⟩, hns, List.cons_ne_nil _ _, ?_, ?_⟩
  · intro s
    have hp : position (probeBody name more blob).objects probeName = some 0 := probe_position _
    have ha : attrType (probeBody name more blob).objects 1 = tag := ht
    unfold inherited
    by_cases h : s = 8 ∨ s = 0
    · have hd : declared (probeBody name more blob).netCache s 0 = some ⟨1, s⟩ := by
        rw [probe_declared, if_pos (by rfl)]
        rcases h with rfl | rfl <;> rfl
      rw [List.findSome?_cons, hp, Option.bind_some, hd]
      show (if s = 8 ∨ s = 0 then some (tag, (1 : ObjectId)) else none) = some (_, _)
      rw [if_pos h, ha]
    · have : (probeName :: ns).findSome? (fun n => (position (probeBody name more blob).objects n).bind
          (declared (probeBody name more blob).netCache s)) = none := by
        rw [List.findSome?_eq_none_iff]
        intro n _
        cases position (probeBody name more blob).objects n with
        | none => rfl
        | some i =>
          rw [Option.bind_some, probe_declared]
          rw [if_neg (fun e => h (.inl e)), if_neg (fun e => h (.inr e)), ite_self]
      rw [this]
      show (if s = 8 ∨ s = 0 then some (tag, (1 : ObjectId)) else none) = none
      rw [if_neg h]
  · refine .inr ⟨8, by simp [probeClass], ?_, (by decide : (9 : Int) = min ((8 : StreamId).toInt + 1) (2 ^ 31 - 1))⟩
    intro t ht
    have : t = 8 ∨ t = 0 := by
      by_cases h : t = 8 ∨ t = 0
      · exact h
      · exact absurd (if_neg h) ht
    rcases this with rfl | rfl <;> decide

theorem probe_spawn (name : Str) (more : List Str) (blob : List Byte) :
    SpawnOf (probeBody name more blob) 0 .none := by
  obtain ⟨ns, hns⟩ := probe_lineage
  refine ⟨_, rfl, .inl ⟨⟨rfl, fun j hj => absurd hj (Nat.not_lt_zero j)⟩, _, hns, ?_⟩⟩
  unfold spawnOf
  rw [List.findSome?_cons, show position (probeBody name more blob).objects probeName = some 0 from
    probe_position _, Option.bind_some, probe_decl]
  rfl

theorem probe_range (name : Str) (more : List Str) (blob : List Byte) :
    InRange (probeBody name more blob).objects (probeBody name more blob).netCache := by
  intro c hc p hp
  cases List.mem_singleton.1 hc
  have hl : 1 < (probeBody name more blob).objects.length := by simp [probeBody]
  simp only [List.mem_cons, List.not_mem_nil, or_false] at hp
  rcases hp with rfl | rfl <;> exact ⟨by decide, hl⟩

/-! ## The layouts of attributes -/

theorem object_absent {m : Str} {k : String} (h : m ≠ k.toList) :
    objectNamed [probeName, m] k = 0 := by
  have e : (m == k.toList) = false := by rw [beq_eq_false_iff_ne]; exact h
  unfold objectNamed position
  rw [List.findIdx?_cons]
  cases probeName == k.toList with
  | true => rfl
  | false => rw [List.findIdx?_cons, e]; rfl

/-- The names of objects that matter to attributes. -/
def productNames : List String :=
  ["TAGame.ProductAttribute_UserColor_TA", "TAGame.ProductAttribute_Painted_TA",
   "TAGame.ProductAttribute_TitleID_TA", "TAGame.ProductAttribute_SpecialEdition_TA",
   "TAGame.ProductAttribute_TeamEdition_TA"]

set_option maxRecDepth 100000 in
theorem productNames_keys : ∀ k ∈ productNames, nameKey k ∉ attributeKeys := by decide +kernel

set_option maxRecDepth 100000 in
theorem productNames_ne : ∀ k ∈ productNames, [] ≠ k.toList := by decide +kernel

theorem listed_ne {name : String} {tag : AttributeTag} (h : (name, tag) ∈ attributesTable) :
    ∀ k ∈ productNames, name.toList ≠ k.toList := by
  intro k hk e
  cases String.toList_inj.1 e
  refine productNames_keys _ hk ?_
  rw [← attributeKeys_eq]
  exact List.mem_map.2 ⟨_, h, rfl⟩

theorem probe_ctxOf {name : Str} (hn : ∀ k ∈ productNames, name ≠ k.toList) (h : Header)
    (blob : List Byte) : CtxOf h (probeBody name [] blob)
      (attrDecoderOf h (probeBody [] [] [])).ctx := by
  have h := ctxOf_attrDecoderOf h (probeBody [] [] [])
  have key : ∀ s ∈ productNames, objectNamed (probeBody [] [] []).objects s =
      objectNamed (probeBody name [] blob).objects s := fun s hs =>
    (object_absent (productNames_ne s hs)).trans (object_absent (hn s hs)).symm
  exact ⟨h.major, h.minor, h.net, h.color.trans (key _ (.head _)),
    h.painted.trans (key _ (.tail _ (.head _))),
    h.titleId.trans (key _ (.tail _ (.tail _ (.head _)))),
    h.special.trans (key _ (.tail _ (.tail _ (.tail _ (.head _))))),
    h.team.trans (key _ (.tail _ (.tail _ (.tail _ (.tail _ (.head _)))))), h.rl223⟩

/-! ## As files -/

theorem textOk_short {s : Str} (h : s.length ≤ 4999) : TextOk s := by
  have h2 : (utf16 s).length ≤ 2 * s.length := by
    clear h
    induction s with
    | nil => exact Nat.le_refl _
    | cons c s ih =>
      have : (utf16Char c).length ≤ 2 := by
        unfold utf16Char; split <;> simp
      unfold utf16 at ih ⊢
      rw [List.flatMap_cons, List.length_append, List.length_cons]
      omega
  unfold TextOk
  split <;> omega

theorem textOk_length {s : Str} (h : TextOk s) : (encText s).length ≤ 20004 := by
  unfold TextOk at h
  unfold encText
  have hw : ∀ w : BitVec 32, (word w).length = 4 := fun w => by simp [word, le]
  cases hm : s.mapM cp1252 with
  | some b =>
    rw [hm] at h
    have := mapM_some_length hm
    simp only [List.length_append, hw, List.length_singleton] at h ⊢
    omega
  | none =>
    rw [hm] at h
    have hf : ∀ l : List (BitVec 16),
        (l.flatMap (fun u : BitVec 16 => le 2 u.toNat)).length = 2 * l.length := by
      intro l
      induction l with
      | nil => rfl
      | cons a l ih => rw [List.flatMap_cons, List.length_append, ih, List.length_cons]; simp [le]; omega
    simp only [List.length_append, hw, hf, List.length_singleton] at h ⊢
    omega

theorem probeName_ok : TextOk probeName := textOk_short (by decide +kernel)

theorem probeBody_ok {name : Str} {more : List Str} {blob : List Byte} (hn : TextOk name)
    (hm : ListOk TextOk more) (hl : more.length ≤ 24998) (hb : blob.length < 2 ^ 31) :
    BodyOk (probeBody name more blob) := by
  refine ⟨⟨Nat.zero_le _, by simp [probeBody]⟩, ⟨Nat.zero_le _, by simp⟩, hb, ⟨Nat.zero_le _, by simp [probeBody]⟩,
    ⟨Nat.zero_le _, by simp [probeBody]⟩, ⟨Nat.zero_le _, by simp [probeBody]⟩, ⟨?_, ?_⟩,
    ⟨Nat.zero_le _, by simp [probeBody]⟩, ⟨Nat.zero_le _, by simp [probeBody]⟩, ⟨(by decide : 1 ≤ 25000), ?_⟩⟩
  · show more.length + 1 + 1 ≤ 25000
    omega
  · intro x hx
    rcases List.mem_cons.1 hx with rfl | hx
    · exact probeName_ok
    rcases List.mem_cons.1 hx with rfl | hx
    · exact hn
    · exact hm.2 x hx
  · intro c hc
    cases List.mem_singleton.1 hc
    exact ⟨(by decide : 2 ≤ 25000), fun _ _ => trivial⟩

theorem probe_length (h : Header) (name : Str) (more : List Str) (blob : List Byte) :
    (encFile h (probeBody name more blob)).length =
      (encFile h (probeBody name more [])).length + blob.length := by
  have hw : ∀ w : BitVec 32, (word w).length = 4 := fun w => by simp [word, le]
  unfold encFile encSection encBody
  simp only [List.length_append, hw, probeBody, List.length_nil]
  omega

set_option maxRecDepth 100000 in
theorem probeBody_length : (encBody (probeBody [] [] [])).length ≤ 200 := by decide +kernel

theorem probeFile_length (h : Header) {name : Str} (hn : name.length ≤ 4999) (blob : List Byte) :
    (encFile h (probeBody name [] blob)).length ≤ (encHeader h).length + 20300 + blob.length := by
  rw [probe_length]
  have hw : ∀ w : BitVec 32, (word w).length = 4 := fun w => by simp [word, le]
  have h2 : (encBody (probeBody name [] [])).length + (encText []).length =
      (encBody (probeBody [] [] [])).length + (encText name).length := by
    unfold encBody encList
    simp only [List.length_append, probeBody, List.flatMap_cons, List.length_cons, hw]
    omega
  have h3 := probeBody_length
  have h4 := textOk_length (textOk_short hn)
  unfold encFile encSection
  simp only [List.length_append, hw]
  omega

/-- A failure of the network data is that of the file. -/
theorem file_network_error (check : CrcCheck) (env : Env) (h : Header) (b : ReplayBody)
    (hh : HeaderOk h) (hb : BodyOk b) (hl : (encFile h b).length < 2 ^ 31)
    (hr : (encFile h b).length ≤ env.isizeMax) {e : NetworkError}
    (he : Network.parse env h b = .err e) :
    parseWith check .always env (encFile h b) = .err (.networkError e) := by
  have hs := fileSecs_enc hh hb [] hl
  rw [List.append_nil] at hs
  obtain ⟨bh, bb, h1, h2, h3, h4, h5, h6⟩ := hs
  obtain ⟨s, hf⟩ := (front_ok_iff check env (encFile h b) hr (fileSections h b)).2
    ⟨[], ⟨bh, bb, h1, h2, h3, h4, h5, fun _ => h6 rfl⟩, fun _ => by simpa using hl⟩
  rw [parseWith_eq, hf]
  simp only [networkStep_cases]
  rw [show Network.parse env (fileSections h b).header (fileSections h b).body = .err e from he]

end Boxcars.Props
