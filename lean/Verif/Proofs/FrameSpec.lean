import Verif.Proofs.AttrSpec2
import Verif.Proofs.SegArray
import Verif.Spec.Frames
/-!
# The frame decoder accepts exactly the described streams
-/
namespace Boxcars
open Spec

variable {ε : Type} {N : Nat}

/-! ### Reading helpers -/

theorem getIndex_spec {α : Type} {xs : List α} (hl : xs.length ≤ 2 ^ 31) (id : I32) :
    BSpec N (getIndex xs id : BM ε (Option α)) (fun a i o => a = nth xs id ∧ i = o) := by
  have : (getIndex xs id : BM ε (Option α)) = Pure.pure (nth xs id) := by
    funext env r
    show BRes.ok _ r = BRes.ok _ r
    rw [nth_eq env hl]
  rw [this]
  exact BSpec.pure _

theorem gate_bind {α β : Type} (n : Nat) (e : ε) (m : BM ε α) (k : α → BM ε β) :
    (do refill; let look ← lookaheadBits; if look < n then BM.fail e else m >>= k : BM ε β) =
    ((do refill; let look ← lookaheadBits; if look < n then BM.fail e else m : BM ε α) >>= k) := by
  rw [BM.assoc]
  congr 1
  funext _
  rw [BM.assoc]
  congr 1
  funext look
  by_cases h : look < n
  · rw [if_pos h, if_pos h]; rfl
  · rw [if_neg h, if_neg h]

/-- A check that the lookahead can never pass. -/
theorem gateNever {α : Type} (n : Nat) (hn : 64 ≤ n) (e : ε) (m : BM ε α) :
    BSpec N (do refill; let look ← lookaheadBits; if look < n then BM.fail e else m)
      (fun _ _ _ => False) := by
  have key : ∀ env r, r.Valid → ∃ l, (l ≤ 63 ∧ l ≤ r.bits.length) ∧
      (do refill; let look ← lookaheadBits; if look < n then BM.fail e else m : BM ε α) env r =
        .err e ⟨r.bits, l⟩ := by
    intro env r hv
    obtain ⟨l, h1, h2, h3, h4⟩ := refill_run (ε := ε) env r hv
    refine ⟨l, ⟨h2, h3⟩, ?_⟩
    rw [BM.bind_ok h4, BM.bind_ok (show lookaheadBits env ⟨r.bits, l⟩ = .ok l ⟨r.bits, l⟩ from rfl),
      if_pos (by omega)]
    rfl
  constructor
  · intro env r hv hl
    obtain ⟨l, h1, h2⟩ := key env r hv
    rw [h2]
    exact ⟨⟨h1.2, h1.1⟩, List.suffix_refl _⟩
  · intro env r hv hl a o
    obtain ⟨l, h1, h2⟩ := key env r hv
    rw [h2]
    constructor
    · rintro ⟨r', h, _⟩; cases h
    · exact False.elim
  · intro env env' r r' hv hv' hl he
    obtain ⟨l, h1, h2⟩ := key env r hv
    obtain ⟨l', h1', h2'⟩ := key env' r' hv'
    rw [h2, h2']
    exact ⟨rfl, he⟩

/-! ### Abstraction of the decoder's tables -/

/-- What a table entry says about a class. -/
def CacheInfo.cls (c : CacheInfo) : ClassDef :=
  ⟨c.maxPropId.toInt, fun s => (c.attributes.get s).map fun a => (a.attr, a.objectId)⟩

/-- The width computed for stream ids fits the limit. -/
def CacheInfo.Ok (c : CacheInfo) : Prop :=
  (0 ≤ c.maxPropId.toInt ∧ c.propIdBits = c.maxPropId.toNat.log2 ∧
    (c.maxPropId.toInt = 0 → c.attributes.get 0#32 = none)) ∨
  (c.maxPropId.toInt < 0 ∧ 63 ≤ c.propIdBits)

namespace FrameDecoder

/-- What the decoder's tables say about the stream. -/
def netOf (d : FrameDecoder) : Net where
  net := d.version.netVersion
  channels := d.maxChannels.toNat
  named := d.doParseName
  sticky := 200
  spawn := nth d.spawns
  cls := fun o => (nth d.objectIndAttributes o).join.map CacheInfo.cls

/-- The tables are well formed. -/
structure Wf (d : FrameDecoder) : Prop where
  spawns : d.spawns.length ≤ 2 ^ 31
  caches : d.objectIndAttributes.length ≤ 2 ^ 31
  channelBits : d.channelBits = d.maxChannels.toNat.log2
  cacheOk : ∀ o c, nth d.objectIndAttributes o = some (some c) → c.Ok
  product : d.product.version = d.version

/-- The actor table agrees with the class table. -/
structure ActorsOk (d : FrameDecoder) (actors : SegArray (ObjectId × CacheInfo)) : Prop where
  length : actors.array.length = 200
  cache : ∀ id obj c, actors.get id = some (obj, c) →
    nth d.objectIndAttributes obj = some (some c)

/-- The announced objects. -/
def known (actors : SegArray (ObjectId × CacheInfo)) : Known := fun id => (actors.get id).map (·.1)

/-- The effect of a record on the decoder's state. -/
def applyEvent (d : FrameDecoder) (st : FrameSt) : Event → FrameSt
  | .new a =>
    match nth d.objectIndAttributes a.objectId with
    | some (some c) =>
      { st with
        actors := st.actors.insert a.actorId (a.objectId, c)
        newActors := st.newActors ++ [a] }
    | _ => st
  | .delete id => { st with deleted := st.deleted ++ [id], actors := st.actors.delete id }
  | .update _ us => { st with updated := st.updated ++ us }

theorem cls_eq_some {d : FrameDecoder} {o : ObjectId} {c : ClassDef} :
    d.netOf.cls o = some c ↔ ∃ ci, nth d.objectIndAttributes o = some (some ci) ∧ ci.cls = c := by
  unfold netOf
  simp only
  rcases nth d.objectIndAttributes o with _ | _ | ci <;> simp

/-! ### Announcements -/

theorem parseNewActor_spec (d : FrameDecoder) (hw : d.Wf) (id : ActorId) :
    BSpec N (d.parseNewActor id) (fun a i o => a.actorId = id ∧ NewRel d.netOf a i o) := by
  have e : d.parseNewActor id =
      (BM.okOr (.notEnoughDataFor "New Actor") (optWhen d.doParseName readU32) >>= fun nameId =>
        BM.okOr (.notEnoughDataFor "New Actor") readBit >>= fun _ =>
        BM.okOr (.notEnoughDataFor "New Actor") readU32 >>= fun objectId =>
        getIndex d.spawns objectId >>= fun spawn =>
        match spawn with
        | none => BM.fail (.objectIdOutOfRange objectId)
        | some spawn =>
          BM.okOr (.notEnoughDataFor "New Actor")
            (Trajectory.fromSpawn spawn d.version.netVersion) >>= fun traj =>
          pure ⟨id, nameId, objectId, traj⟩) := by
    unfold parseNewActor optWhen
    cases d.doParseName
    · rfl
    · funext env r
      simp only [Bind.bind, BM.bind, BM.okOr, BM.mapErr, if_true, Pure.pure, BM.pure]
      cases readU32 env r <;> rfl
  rw [e]
  have hn : BSpec N (BM.okOr (FrameError.notEnoughDataFor "New Actor") (optWhen d.doParseName readU32))
      (ofB (When (d.doParseName = true) Word)) := (when_spec Iff.rfl word_spec).okOr _
  refine (BSpec.bind' hn fun nm => BSpec.bind' (BSpec.readBit.okOr _) fun b =>
    BSpec.bind' (BSpec.readU32.okOr _) fun obj =>
    BSpec.bind' (getIndex_spec hw.spawns obj) (R' := fun sp a i o => ∃ s, sp = some s ∧ ∃ t j,
      ofB (SpawnEnc d.version.netVersion s) t i j ∧ a = ⟨id, nm, obj, t⟩ ∧ j = o) fun sp => ?_).congr ?_
  · cases sp with
    | none => refine (BSpec.fail _).congr fun a i o _ => ?_; simp
    | some s =>
      refine (BSpec.bind' ((BSpec.spawn _ s).okOr _) fun t => BSpec.pure _).congr fun a i o _ => ?_
      simp
  · intro a i o _
    unfold NewRel
    constructor
    · rintro ⟨nm, _, ⟨bs, h1, rfl⟩, b, _, rfl, obj, _, rfl, _, _, ⟨rfl, rfl⟩, s, hs, t, _,
        ⟨ts, h2, rfl⟩, rfl, rfl⟩
      exact ⟨rfl, bs, b, s, ts, h1, hs, h2, rfl⟩
    · rintro ⟨ha, nm, b, sp, t, h1, h2, h3, rfl⟩
      obtain ⟨aid, an, ao, at'⟩ := a
      simp only at ha h1 h2 h3
      subst ha
      exact ⟨an, _, ⟨nm, h1, rfl⟩, b, _, rfl, ao, _, rfl, _, _, ⟨rfl, rfl⟩, sp, h2, at', _,
        ⟨t, h3, rfl⟩, rfl, rfl⟩

/-! ### Updates -/

theorem propId_spec (c : CacheInfo) (hc : c.Ok) (e : ε) :
    BSpec N (do refill; let look ← lookaheadBits
                if look < c.propIdBits + 1 then BM.fail e
                else peekBitsMaxComputed c.propIdBits c.maxPropId.toNat)
      (fun v i o => 0 ≤ c.maxPropId.toInt ∧ c.propIdBits + 1 ≤ i.length ∧
        v < max c.maxPropId.toNat 1 ∧ i = bounded c.maxPropId.toNat v ++ o) := by
  rcases hc with ⟨h1, h2, _⟩ | ⟨h1, h2⟩
  · rw [h2]
    refine (Peek.gateFail e ?_ (Peek.bounded _)).congr fun v i o _ => ?_
    · have : c.maxPropId.toNat < 2 ^ 32 := c.maxPropId.isLt
      by_cases h0 : c.maxPropId.toNat = 0
      · rw [h0]; decide
      · have := (Nat.log2_lt h0).2 this
        omega
    · constructor
      · rintro ⟨a, b⟩; exact ⟨h1, a, b⟩
      · rintro ⟨_, a, b⟩; exact ⟨a, b⟩
  · refine (gateNever _ (by omega) e _).congr fun v i o _ => ?_
    constructor
    · exact False.elim
    · rintro ⟨h, _⟩; omega

theorem propsRel_length {A : AttrRel} {c : ClassDef} {id : ActorId} {us : List UpdatedAttribute}
    {i o : Bits} (h : PropsRel A c id us i o) : 1 ≤ i.length := by
  cases h <;> simp

theorem toInt_of_nonneg {x : I32} (h : 0 ≤ x.toInt) : x.toInt = x.toNat := by
  rw [BitVec.toInt_eq_toNat_cond] at h ⊢
  have := x.isLt
  split at h <;> split <;> omega

/-- `AttrAccepts` leaves a suffix. -/
theorem accepts_length (ad : AttrDecoder) (hp : ad.product.version = ad.version)
    {tag : AttributeTag} {v : Attribute} {i o : Bits} (h : AttrAccepts ad.ctx tag v i o) :
    o.length ≤ i.length :=
  ((decode_spec (N := i.length) ad hp tag).suffix (Nat.le_refl _) h).length_le

theorem bounded_length_ge (M v : Nat) : M.log2 ≤ (bounded M v).length := by
  unfold bounded
  simp

theorem updateLoop_spec (ad : AttrDecoder) (hp : ad.product.version = ad.version) (id : ActorId)
    (obj : ObjectId) (c : CacheInfo) (hc : c.Ok) (fuel : Nat) (N : Nat) (hN : N < fuel)
    (st : FrameSt) :
    BSpec N (updateLoop ad id obj c fuel st) (fun st' i o =>
      ∃ us, PropsRel (AttrAccepts ad.ctx) c.cls id us i o ∧
        st' = { st with updated := st.updated ++ us }) := by
  induction fuel generalizing N st with
  | zero => omega
  | succ fuel ih =>
    have e : updateLoop ad id obj c (fuel + 1) st =
        (req "Is prop present" st readBit >>= fun more =>
          if more then
            (do refill; let look ← lookaheadBits
                if look < c.propIdBits + 1 then BM.fail (.notEnoughDataFor "Prop id", st)
                else peekBitsMaxComputed c.propIdBits c.maxPropId.toNat) >>= fun raw =>
            match c.attributes.get (BitVec.ofNat 32 raw) with
            | none => BM.fail (.missingAttribute id obj (BitVec.ofNat 32 raw), st)
            | some attr =>
              BM.mapErr (fun e => (attrErr id obj (BitVec.ofNat 32 raw) e, st))
                (ad.decode attr.attr) >>= fun value =>
              updateLoop ad id obj c fuel
                { st with updated := st.updated ++ [⟨id, BitVec.ofNat 32 raw, attr.objectId, value⟩] }
          else pure st) := by
      rw [updateLoop]
      congr 1
      funext more
      cases more
      · rfl
      · rw [if_pos rfl, if_pos rfl, ← gate_bind]
        rfl
    rw [e]
    refine (BSpec.bind (BSpec.readBit.okOr _) (R' := fun more st' j o => if more then
      ∃ raw k, (0 ≤ c.maxPropId.toInt ∧ c.propIdBits + 1 ≤ j.length ∧
        raw < max c.maxPropId.toNat 1 ∧ j = bounded c.maxPropId.toNat raw ++ k) ∧
        ∃ attr, c.attributes.get (BitVec.ofNat 32 raw) = some attr ∧
        ∃ v l, AttrAccepts ad.ctx attr.attr v k l ∧
        ∃ us, PropsRel (AttrAccepts ad.ctx) c.cls id us l o ∧
        st' = { st with updated :=
          (st.updated ++ [⟨id, BitVec.ofNat 32 raw, attr.objectId, v⟩]) ++ us }
      else st' = st ∧ j = o) ?_).congr ?_
    · intro more i j hi hr
      have hj : j.length < fuel := by rw [hr, List.length_cons] at hi; omega
      cases more with
      | false => exact BSpec.pure _
      | true =>
        rw [if_pos rfl]
        simp only [if_true]
        refine BSpec.bind' (propId_spec c hc _) (R' := fun raw (st' : FrameSt) k o =>
          ∃ attr, c.attributes.get (BitVec.ofNat 32 raw) = some attr ∧
          ∃ v l, AttrAccepts ad.ctx attr.attr v k l ∧
          ∃ us, PropsRel (AttrAccepts ad.ctx) c.cls id us l o ∧
          st' = { st with updated :=
            (st.updated ++ [⟨id, BitVec.ofNat 32 raw, attr.objectId, v⟩]) ++ us }) fun raw => ?_
        cases hg : c.attributes.get (BitVec.ofNat 32 raw) with
        | none => refine (BSpec.fail _).congr fun _ _ _ _ => ?_; simp
        | some attr =>
          refine (BSpec.bind' ((decode_spec ad hp attr.attr).mapErr _) fun v =>
            ih j.length hj { st with updated := st.updated ++ [⟨id, BitVec.ofNat 32 raw, attr.objectId, v⟩] }).congr ?_
          intro st' k o _
          constructor
          · rintro ⟨v, l, h1, us, h2, h3⟩
            exact ⟨attr, rfl, v, l, h1, us, h2, h3⟩
          · rintro ⟨_, h0, v, l, h1, us, h2, h3⟩
            cases h0
            exact ⟨v, l, h1, us, h2, h3⟩
    · intro st' i o _
      constructor
      · rintro ⟨more, j, rfl, h⟩
        cases more with
        | false =>
          obtain ⟨rfl, rfl⟩ := h
          exact ⟨[], .done, by simp⟩
        | true =>
          obtain ⟨raw, k, ⟨h1, h2, h3, rfl⟩, attr, h4, v, l, h5, us, h6, rfl⟩ := h
          have hM : c.maxPropId.toNat < 2 ^ 32 := c.maxPropId.isLt
          have hraw : (BitVec.ofNat 32 raw).toNat = raw := by
            rw [BitVec.toNat_ofNat]; apply Nat.mod_eq_of_lt
            omega
          have hM0 : c.maxPropId.toInt = c.maxPropId.toNat := toInt_of_nonneg h1
          have hlt : raw < c.maxPropId.toNat := by
            rcases hc with ⟨_, _, h0⟩ | ⟨h0, _⟩
            · by_cases hz : c.maxPropId.toNat = 0
              · have : raw = 0 := by omega
                subst this
                rw [h0 (by omega)] at h4
                cases h4
              · omega
            · omega
          refine ⟨⟨id, BitVec.ofNat 32 raw, attr.objectId, v⟩ :: us, ?_, by simp⟩
          have := PropsRel.prop (A := AttrAccepts ad.ctx) (c := c.cls) (id := id)
            (s := BitVec.ofNat 32 raw) (tag := attr.attr) (obj := attr.objectId) (v := v)
            (us := us) (j := k) (k := l) (o := o)
            (by show _ < c.maxPropId.toInt; rw [hraw, hM0]; exact_mod_cast hlt)
            (by show Option.map _ _ = _; rw [h4]; rfl) h5 h6
          rw [hraw] at this
          have hl : c.cls.limit.toNat = c.maxPropId.toNat := by
            show c.maxPropId.toInt.toNat = _; rw [hM0]; rfl
          rw [hl] at this
          exact this
      · rintro ⟨us, h, rfl⟩
        cases h with
        | done => exact ⟨false, o, rfl, by simp⟩
        | @prop s tag ob v us j k _ h1 h2 h3 h4 =>
          have h1 : (s.toNat : Int) < c.maxPropId.toInt := h1
          have h1' : 0 ≤ c.maxPropId.toInt := by omega
          have hM0 : c.maxPropId.toInt = c.maxPropId.toNat := toInt_of_nonneg h1'
          have hl : c.cls.limit.toNat = c.maxPropId.toNat := by
            show c.maxPropId.toInt.toNat = _; rw [hM0]; rfl
          have h2 : (c.attributes.get s).map (fun a => (a.attr, a.objectId)) = some (tag, ob) := h2
          obtain ⟨attr, hg, he⟩ := Option.map_eq_some_iff.1 h2
          cases he
          rw [hl]
          refine ⟨true, _, rfl, ?_⟩
          rw [if_pos rfl]
          have hs : BitVec.ofNat 32 s.toNat = s := by simp
          refine ⟨s.toNat, j, ⟨h1', ?_, by omega, rfl⟩, attr, by rw [hs, hg], v, k, h3, us, h4,
            by simp [hs]⟩
          have a1 := propsRel_length h4
          have a2 := accepts_length ad hp h3
          have a3 := bounded_length_ge c.maxPropId.toNat s.toNat
          rw [List.length_append]
          rcases hc with ⟨_, h0, _⟩ | ⟨h0, _⟩ <;> omega

/-! ### Records -/

/-- One iteration of the actor loop after its leading bit. -/
def eventBody (d : FrameDecoder) (ad : AttrDecoder) (fuel : Nat) (st : FrameSt) :
    BM (FrameError × FrameSt) FrameSt := do
  let (raw, alive) ← (do
    refill; let look ← lookaheadBits
    if look < d.channelBits + 1 + 1 then BM.fail (.notEnoughDataFor "Actor Id", st)
    else
      let raw ← peekBitsMaxComputed d.channelBits d.maxChannels.toNat
      let alive ← peekAndConsume 1
      pure (raw, alive))
  if alive == 1 then
    let isNew ← req "Is new actor" st readBit
    if isNew then
      let actor ← BM.mapErr (fun e => (e, st)) (d.parseNewActor (BitVec.ofNat 32 raw))
      let cache ← getIndex d.objectIndAttributes actor.objectId
      match cache with
      | some (some cache) =>
        pure { st with
          actors := st.actors.insert actor.actorId (actor.objectId, cache)
          newActors := st.newActors ++ [actor] }
      | _ => BM.fail (.missingCache (BitVec.ofNat 32 raw) actor.objectId, st)
    else
      match st.actors.get (BitVec.ofNat 32 raw) with
      | none => BM.fail (.missingActor (BitVec.ofNat 32 raw), st)
      | some (objectId, cache) => updateLoop ad (BitVec.ofNat 32 raw) objectId cache (fuel + 1) st
  else
    pure { st with
      deleted := st.deleted ++ [BitVec.ofNat 32 raw]
      actors := st.actors.delete (BitVec.ofNat 32 raw) }

theorem pure_bind' {α β : Type} (a : α) (k : α → BM ε β) : ((Pure.pure a : BM ε α) >>= k) = k a := rfl

theorem fail_bind {α β : Type} (e : ε) (k : α → BM ε β) :
    ((BM.fail e : BM ε α) >>= k) = BM.fail e := rfl

theorem bind_congr' {α β : Type} (m : BM ε α) {f g : α → BM ε β} (h : ∀ a, f a = g a) :
    m >>= f = m >>= g := by rw [funext h]

theorem actorLoop_succ (d : FrameDecoder) (ad : AttrDecoder) (fuel : Nat) (st : FrameSt) :
    actorLoop d ad (fuel + 1) st = (req "Actor data" st readBit >>= fun more =>
      if more then eventBody d ad fuel st >>= actorLoop d ad fuel else pure st) := by
  rw [actorLoop]
  refine bind_congr' _ fun more => ?_
  cases more
  · rfl
  · rw [if_pos rfl, if_pos rfl]
    unfold eventBody
    rw [BM.assoc, ← gate_bind]
    refine bind_congr' _ fun _ => bind_congr' _ fun look => ?_
    split
    · rfl
    · rw [BM.assoc]
      refine bind_congr' _ fun raw => ?_
      rw [BM.assoc]
      refine bind_congr' _ fun alive => ?_
      rw [pure_bind']
      simp only
      split
      · rw [BM.assoc]
        refine bind_congr' _ fun isNew => ?_
        cases isNew
        · rw [if_neg (by decide), if_neg (by decide)]
          rcases st.actors.get (BitVec.ofNat 32 raw) with _ | ⟨objectId, cache⟩ <;> rfl
        · rw [if_pos rfl, if_pos rfl, BM.assoc]
          refine bind_congr' _ fun actor => ?_
          rw [BM.assoc]
          refine bind_congr' _ fun cache => ?_
          rcases cache with _ | _ | cache <;> rfl
      · rfl

theorem log2_lt_32 (x : U32) : x.toNat.log2 < 32 := by
  have : x.toNat < 2 ^ 32 := x.isLt
  by_cases h0 : x.toNat = 0
  · rw [h0]; decide
  · exact (Nat.log2_lt h0).2 this

theorem head_spec (d : FrameDecoder) (hw : d.Wf) (e : ε) :
    BSpec N (do
      refill; let look ← lookaheadBits
      if look < d.channelBits + 1 + 1 then BM.fail e
      else
        let raw ← peekBitsMaxComputed d.channelBits d.maxChannels.toNat
        let alive ← peekAndConsume 1
        pure (raw, alive))
      (fun p i o => d.channelBits + 2 ≤ i.length ∧ p.1 < max d.maxChannels.toNat 1 ∧
        ∃ b : Bool, p.2 = b.toNat ∧ i = bounded d.maxChannels.toNat p.1 ++ (b :: o)) := by
  rw [hw.channelBits]
  have := log2_lt_32 d.maxChannels
  refine (Peek.gateFail e (by omega) ((Peek.bounded d.maxChannels.toNat).bind fun raw _ _ _ =>
    ((Peek.peek 1).bind (k := 0) fun alive _ _ _ => Peek.pure (raw, alive)).mono (by omega))).congr ?_
  intro p i o _
  obtain ⟨p1, p2⟩ := p
  constructor
  · rintro ⟨h1, raw, _, ⟨h2, rfl⟩, alive, _, ⟨h3, rfl⟩, h4, rfl⟩
    cases h4
    refine ⟨h1, h2, decide (p2 = 1), ?_, ?_⟩
    · have : p2 = 0 ∨ p2 = 1 := by omega
      rcases this with rfl | rfl <;> rfl
    · have : p2 = 0 ∨ p2 = 1 := by omega
      rcases this with rfl | rfl <;> rfl
  · rintro ⟨h1, h2, b, h3, rfl⟩
    simp only at h2 h3
    subst h3
    refine ⟨h1, p1, _, ⟨h2, rfl⟩, b.toNat, o, ⟨by cases b <;> decide, ?_⟩, rfl, rfl⟩
    cases b <;> rfl

theorem eventBody_spec (d : FrameDecoder) (hw : d.Wf) (ad : AttrDecoder)
    (hp : ad.product.version = ad.version) (fuel N : Nat) (hN : N ≤ fuel) (st : FrameSt)
    (hst : d.ActorsOk st.actors) :
    BSpec N (eventBody d ad fuel st) (fun st' i o => d.channelBits + 2 ≤ i.length ∧
      ∃ e, EventRel d.netOf (AttrAccepts ad.ctx) (known st.actors) e i o ∧
        st' = d.applyEvent st e) := by
  unfold eventBody
  refine (BSpec.bind' (head_spec d hw _) (R' := fun p st' j o => if p.2 == 1 then
      ∃ isNew k, j = isNew :: k ∧ (if isNew then
        ∃ a l, (a.actorId = BitVec.ofNat 32 p.1 ∧ NewRel d.netOf a k l) ∧
          ∃ c m, (c = nth d.objectIndAttributes a.objectId ∧ l = m) ∧
          ∃ ci, c = some (some ci) ∧ st' = { st with
            actors := st.actors.insert a.actorId (a.objectId, ci)
            newActors := st.newActors ++ [a] } ∧ m = o
        else ∃ obj c, st.actors.get (BitVec.ofNat 32 p.1) = some (obj, c) ∧
          ∃ us, PropsRel (AttrAccepts ad.ctx) c.cls (BitVec.ofNat 32 p.1) us k o ∧
          st' = { st with updated := st.updated ++ us })
      else st' = { st with
        deleted := st.deleted ++ [BitVec.ofNat 32 p.1]
        actors := st.actors.delete (BitVec.ofNat 32 p.1) } ∧ j = o) fun p => ?_).congr ?_
  · obtain ⟨raw, alive⟩ := p
    simp only
    by_cases ha : (alive == 1) = true
    · simp only [if_pos ha]
      refine BSpec.bind' (BSpec.readBit.okOr _) fun isNew => ?_
      cases isNew with
      | true =>
        simp only [if_true]
        refine BSpec.bind' ((parseNewActor_spec d hw _).mapErr _) fun a =>
          BSpec.bind' (getIndex_spec hw.caches _) fun c => ?_
        rcases c with _ | _ | ci
        · refine (BSpec.fail _).congr fun _ _ _ _ => ?_; simp
        · refine (BSpec.fail _).congr fun _ _ _ _ => ?_; simp
        · refine (BSpec.pure _).congr fun _ _ _ _ => ?_; simp
      | false =>
        simp only [Bool.false_eq_true, if_false]
        cases hg : st.actors.get (BitVec.ofNat 32 raw) with
        | none => refine (BSpec.fail _).congr fun _ _ _ _ => ?_; simp
        | some p =>
          obtain ⟨obj, c⟩ := p
          refine (updateLoop_spec ad hp _ obj c (hw.cacheOk _ _ (hst.cache _ _ _ hg)) (fuel + 1) N
            (by omega) st).congr fun st' i o _ => ?_
          simp
    · simp only [if_neg ha]
      exact BSpec.pure _
  · intro st' i o _
    have hmx : d.maxChannels.toNat < 2 ^ 32 := d.maxChannels.isLt
    constructor
    · rintro ⟨⟨raw, alive⟩, j, ⟨h1, h2, b, hb, rfl⟩, h⟩
      simp only at h2 hb h
      have hraw : (BitVec.ofNat 32 raw).toNat = raw := by
        rw [BitVec.toNat_ofNat]; apply Nat.mod_eq_of_lt; omega
      refine ⟨h1, ?_⟩
      have hin : InChannels d.netOf (BitVec.ofNat 32 raw) := by
        unfold InChannels; rw [hraw]; exact h2
      have hid : bounded d.maxChannels.toNat raw = Spec.actorId d.netOf (BitVec.ofNat 32 raw) := by
        unfold Spec.actorId; rw [hraw]; rfl
      subst hb
      cases b with
      | false =>
        obtain ⟨rfl, rfl⟩ := h
        exact ⟨.delete (BitVec.ofNat 32 raw), hid ▸ .delete hin, rfl⟩
      | true =>
        obtain ⟨isNew, k, rfl, h⟩ := h
        cases isNew with
        | true =>
          obtain ⟨a, l, ⟨ha, hn⟩, c, m, ⟨hc, rfl⟩, ci, rfl, rfl, rfl⟩ := h
          rw [hid, ← ha]
          refine ⟨.new a, .new (ha ▸ hin) hn (cls_eq_some.2 ⟨ci, hc.symm, rfl⟩), ?_⟩
          unfold applyEvent
          simp only [← hc]
        | false =>
          obtain ⟨obj, c, hg, us, hu, rfl⟩ := h
          rw [hid]
          refine ⟨.update (BitVec.ofNat 32 raw) us, .update hin ?_
            (cls_eq_some.2 ⟨c, hst.cache _ _ _ hg, rfl⟩) hu, rfl⟩
          unfold known; rw [hg]; rfl
    · rintro ⟨h1, e, he, rfl⟩
      have hofn : ∀ id : I32, BitVec.ofNat 32 id.toNat = id := by intro id; simp
      cases he with
      | @delete id _ hin =>
        exact ⟨(id.toNat, 0), o, ⟨h1, hin, false, rfl, rfl⟩, by simp [applyEvent, hofn]⟩
      | @new a c j _ hin hn hc =>
        obtain ⟨ci, hci, _⟩ := cls_eq_some.1 hc
        refine ⟨(a.actorId.toNat, 1), _, ⟨h1, hin, true, rfl, rfl⟩, ?_⟩
        simp only [beq_self_eq_true, if_true, hofn]
        refine ⟨true, j, rfl, ?_⟩
        simp only [if_true]
        refine ⟨a, o, ⟨rfl, hn⟩, _, o, ⟨rfl, rfl⟩, ci, hci, ?_, rfl⟩
        unfold applyEvent
        simp only [hci]
      | @update id obj c us j _ hin hk hc hu =>
        obtain ⟨ci, hci, rfl⟩ := cls_eq_some.1 hc
        refine ⟨(id.toNat, 1), _, ⟨h1, hin, true, rfl, rfl⟩, ?_⟩
        simp only [beq_self_eq_true, if_true, hofn]
        refine ⟨false, j, rfl, ?_⟩
        simp only [Bool.false_eq_true, if_false]
        unfold known at hk
        obtain ⟨⟨ob, c'⟩, hg, rfl⟩ := Option.map_eq_some_iff.1 hk
        have := hst.cache _ _ _ hg
        rw [hci] at this
        cases this
        exact ⟨ob, ci, hg, us, hu, rfl⟩

/-! ### The state after a record -/

theorem applyEvent_new {d : FrameDecoder} {st : FrameSt} {a : NewActor} {c : CacheInfo}
    (h : nth d.objectIndAttributes a.objectId = some (some c)) :
    d.applyEvent st (.new a) = { st with
        actors := st.actors.insert a.actorId (a.objectId, c)
        newActors := st.newActors ++ [a] } := by
  unfold applyEvent; simp only [h]

theorem applyEvent_ok {d : FrameDecoder} {st : FrameSt} (h : d.ActorsOk st.actors) (e : Event) :
    d.ActorsOk (d.applyEvent st e).actors := by
  cases e with
  | new a =>
    rcases hc : nth d.objectIndAttributes a.objectId with _ | _ | c
    · unfold applyEvent; simp only [hc]; exact h
    · unfold applyEvent; simp only [hc]; exact h
    · rw [applyEvent_new hc]
      refine ⟨by simp only [SegArray.insert_length]; exact h.length, ?_⟩
      intro id obj c'
      simp only [SegArray.get_insert]
      split
      · intro hh; cases hh; exact hc
      · exact h.cache id obj c'
  | delete x =>
    refine ⟨by simp only [applyEvent, SegArray.delete_length]; exact h.length, ?_⟩
    intro id obj c'
    simp only [applyEvent, SegArray.get_delete]
    split
    · intro hh; cases hh
    · exact h.cache id obj c'
  | update x us => exact h

theorem known_applyEvent {d : FrameDecoder} {st : FrameSt} (h : d.ActorsOk st.actors)
    {A : AttrRel} {k : Known} {e : Event} {i o : Bits} (he : EventRel d.netOf A k e i o) :
    known (d.applyEvent st e).actors = (known st.actors).after d.netOf e := by
  cases he with
  | @new a c j _ hin hn hc =>
    obtain ⟨ci, hci, _⟩ := cls_eq_some.1 hc
    funext id
    unfold known applyEvent Known.after
    simp only [hci, SegArray.get_insert]
    split <;> rfl
  | @delete x _ hin =>
    funext id
    unfold known applyEvent Known.after
    simp only [SegArray.get_delete]
    have : (st.actors.inArray x = false) ↔ d.netOf.sticky ≤ x.toNat := by
      rw [← Bool.not_eq_true, SegArray.inArray_iff _ (by rw [h.length]; decide), h.length]
      show _ ↔ 200 ≤ x.toNat
      omega
    simp only [this]
    by_cases hc : id = x ∧ d.netOf.sticky ≤ x.toNat
    · rw [if_pos hc, if_pos hc]; rfl
    · rw [if_neg hc, if_neg hc]
  | update => rfl

theorem eventsRel_length {n : Net} {A : AttrRel} {k : Known} {es : List Event} {i o : Bits}
    (h : EventsRel n A k es i o) : 1 ≤ i.length := by
  cases h <;> simp

theorem actorLoop_spec (d : FrameDecoder) (hw : d.Wf) (ad : AttrDecoder)
    (hp : ad.product.version = ad.version) (fuel N : Nat) (hN : N < fuel) (st : FrameSt)
    (hst : d.ActorsOk st.actors) :
    BSpec N (actorLoop d ad fuel st) (fun st' i o =>
      ∃ es, EventsRel d.netOf (AttrAccepts ad.ctx) (known st.actors) es i o ∧
        st' = es.foldl d.applyEvent st) := by
  induction fuel generalizing N st with
  | zero => omega
  | succ fuel ih =>
    rw [actorLoop_succ]
    refine (BSpec.bind (BSpec.readBit.okOr _) (R' := fun more st' j o => if more then
      ∃ e k, EventRel d.netOf (AttrAccepts ad.ctx) (known st.actors) e j k ∧
        ∃ es, EventsRel d.netOf (AttrAccepts ad.ctx) ((known st.actors).after d.netOf e) es k o ∧
        st' = es.foldl d.applyEvent (d.applyEvent st e)
      else st' = st ∧ j = o) ?_).congr ?_
    · intro more i j hi hr
      have hj : j.length < fuel := by rw [hr, List.length_cons] at hi; omega
      cases more with
      | false => exact BSpec.pure _
      | true =>
        simp only [if_true]
        have hb := eventBody_spec d hw ad hp fuel j.length (by omega) st hst
        refine (BSpec.bind hb (R' := fun st1 st' k o =>
            ∃ es, EventsRel d.netOf (AttrAccepts ad.ctx) (known st1.actors) es k o ∧
            st' = es.foldl d.applyEvent st1) ?_).congr ?_
        · rintro st1 i' k hi' ⟨h1, e, he, rfl⟩
          have hs := (hb.suffix hi' ⟨h1, e, he, rfl⟩).length_le
          exact ih k.length (by omega) _ (applyEvent_ok hst e)
        · intro st' i' o hi'
          constructor
          · rintro ⟨_, k, ⟨h1, e, he, rfl⟩, es, hes, rfl⟩
            rw [known_applyEvent hst he] at hes
            exact ⟨e, k, he, es, hes, rfl⟩
          · rintro ⟨e, k, he, es, hes, rfl⟩
            refine ⟨_, k, ⟨?_, e, he, rfl⟩, es, ?_, rfl⟩
            · have h1 := eventsRel_length hes
              rw [hw.channelBits]
              cases he with
              | @new a c l _ hin hn hc =>
                have := bounded_length_ge d.maxChannels.toNat a.actorId.toNat
                simp only [actorId, netOf, List.length_append, List.length_cons]
                omega
              | @delete id _ hin =>
                have := bounded_length_ge d.maxChannels.toNat id.toNat
                simp only [actorId, netOf, List.length_append, List.length_cons]
                omega
              | @update id obj c us l _ hin hk hc hu =>
                have := bounded_length_ge d.maxChannels.toNat id.toNat
                simp only [actorId, netOf, List.length_append, List.length_cons]
                omega
            · rw [known_applyEvent hst he]; exact hes
    · intro st' i o _
      constructor
      · rintro ⟨more, j, rfl, h⟩
        cases more with
        | false =>
          obtain ⟨rfl, rfl⟩ := h
          exact ⟨[], .done, rfl⟩
        | true =>
          obtain ⟨e, k, he, es, hes, rfl⟩ := h
          exact ⟨e :: es, .event he hes, rfl⟩
      · rintro ⟨es, h, rfl⟩
        cases h with
        | done => exact ⟨false, o, rfl, by simp⟩
        | event he hes => exact ⟨true, _, rfl, by simp only [if_true]; exact ⟨_, _, he, _, hes, rfl⟩⟩

end FrameDecoder
end Boxcars
