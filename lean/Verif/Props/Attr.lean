import Verif.Proofs.AttrSpec2
import Verif.Model.Network
/-!
# C28: attribute decoding is exactly the wire grammar

`Spec/Attr.lean` gives the wire format of the 44 implemented attribute types.  The
decoder accepts exactly that format, for every version and every product table, with
one exception: a rigid body whose velocities are cut off by the end of data.
-/
namespace Boxcars.Props
open Boxcars Spec

variable (d : AttrDecoder) (hp : d.product.version = d.version)

/-- The decoder `network::parse` makes satisfies the hypothesis of this file. -/
theorem network_decoder (h : Header) (body : ReplayBody) (n : Nat)
    (spawns : List (Option SpawnTrajectory)) (caches : List (Option CacheInfo)) :
    (Network.frameDecoder h body n spawns caches).attrDecoder.product.version =
      (Network.frameDecoder h body n spawns caches).attrDecoder.version := rfl

include hp

/-- C28, round trip. For every attribute type, decoding the encoding of a value followed
by any bits gives that value and leaves exactly those bits. -/
theorem attr_round_trip (env : Env) (tag : AttributeTag) (a : Attribute) (bs rest : List Bool)
    (h : AttrEnc d.ctx tag a bs) (r : Reader) (hv : r.Valid) (hr : r.bits = bs ++ rest) :
    ∃ r', d.decode tag env r = .ok a r' ∧ r'.bits = rest :=
  ((decode_spec d hp tag).okIff env r hv (Nat.le_refl _) a rest).2 (.inl ⟨bs, h, hr⟩)

/-- C28, converse, for every type but the rigid body: what is decoded was an encoding. -/
theorem attr_exact (env : Env) (tag : AttributeTag) (ht : tag ≠ .rigidBody) (r r' : Reader)
    (hv : r.Valid) (a : Attribute) (h : d.decode tag env r = .ok a r') :
    ∃ bs, AttrEnc d.ctx tag a bs ∧ r.bits = bs ++ r'.bits :=
  ((decode_enc d hp tag ht).okIff env r hv (Nat.le_refl _) a _).1 ⟨r', h, rfl⟩

/-- C28, converse, for every type.  The full statement would be
`∃ bs, AttrEnc d.ctx tag a bs ∧ r.bits = bs ++ r'.bits`; it is false for rigid bodies
(`attr_exact_fails`), where the second alternative describes exactly what happens. -/
theorem attr_exact_partial (env : Env) (tag : AttributeTag) (r r' : Reader)
    (hv : r.Valid) (a : Attribute) (h : d.decode tag env r = .ok a r') :
    (∃ bs, AttrEnc d.ctx tag a bs ∧ r.bits = bs ++ r'.bits) ∨
    (tag = .rigidBody ∧ ∃ v, a = .rigidBody v ∧ v.sleeping = false ∧
      (v.linearVelocity = none ∨ v.angularVelocity = none) ∧
      RigidBodyTrunc d.ctx v r.bits r'.bits) := by
  rcases ((decode_spec d hp tag).okIff env r hv (Nat.le_refl _) a _).1 ⟨r', h, rfl⟩ with
    h | ⟨ht, v, ha, h⟩
  · exact .inl h
  · exact .inr ⟨ht, v, ha, h.1, h.2.1, h⟩

/-- C28. The exception needs the end of data within 74 bits after the attribute. -/
theorem attr_exact_far (env : Env) (tag : AttributeTag) (r r' : Reader)
    (hv : r.Valid) (a : Attribute) (h : d.decode tag env r = .ok a r')
    (hl : 74 ≤ r'.bits.length) :
    ∃ bs, AttrEnc d.ctx tag a bs ∧ r.bits = bs ++ r'.bits := by
  rcases attr_exact_partial d hp env tag r r' hv a h with h | ⟨_, v, _, _, hn, h⟩
  · exact h
  · exfalso
    have trunc : ∀ i o, VecTrunc d.ctx.net i o → o.length < 69 := by
      rintro i o (⟨h5, rfl⟩ | ⟨_, s, hs, _, hl⟩)
      · omega
      · have : s < 22 := by rcases sizeClasses_cases d.ctx.net with h | h <;> omega
        omega
    obtain ⟨_, _, l, q, j, k, _, _, _, h1, h2⟩ := h
    have h3 : r'.bits.length ≤ k.length := by
      unfold Velocity at h2
      split at h2
      · obtain ⟨b, _, hb⟩ := h2; rw [hb]; simp
      · rcases h2 with ⟨_, hb⟩ | ⟨_, s, _, hb, _⟩
        · rw [hb]
        · rw [hb]; simp
    rcases hn with hn | hn
    · rw [hn] at h1
      have := trunc _ _ h1
      omega
    · rw [hn] at h2
      have := trunc _ _ h2
      omega

/-- C28. No decoder panics, reads past its input or depends on what is buffered. -/
theorem attr_deterministic (env env' : Env) (tag : AttributeTag) (r r' : Reader) (hv : r.Valid)
    (hv' : r'.Valid) (hb : r.bits = r'.bits) :
    (∃ a o o', d.decode tag env r = .ok a o ∧ d.decode tag env' r' = .ok a o' ∧
      o.bits = o'.bits ∧ o.bits <:+ r.bits) ∨
    (∃ e o o', d.decode tag env r = .err e o ∧ d.decode tag env' r' = .err e o' ∧
      o.bits = o'.bits ∧ o.bits <:+ r.bits) := by
  have hs := (decode_spec d hp tag).agn env env' r r' hv hv' (Nat.le_refl _) hb
  have hg := (decode_spec d hp tag).good env r hv (Nat.le_refl _)
  revert hs hg
  cases d.decode tag env r <;> cases d.decode tag env' r' <;> intro hs hg <;>
    first | exact hs.elim | skip
  · obtain ⟨rfl, h⟩ := hs; exact .inl ⟨_, _, _, rfl, rfl, h, hg.2⟩
  · obtain ⟨rfl, h⟩ := hs; exact .inr ⟨_, _, _, rfl, rfl, h, hg.2⟩

/-- C28. The format is unambiguous: an encoding determines its value and its end. -/
theorem attr_unambiguous (tag : AttributeTag) (a a' : Attribute) (bs bs' x x' : List Bool)
    (h : AttrEnc d.ctx tag a bs) (h' : AttrEnc d.ctx tag a' bs') (hx : bs ++ x = bs' ++ x') :
    a = a' ∧ x = x' :=
  (decode_spec (N := (bs ++ x).length) d hp tag).func (Nat.le_refl _)
    (.inl ⟨bs, h, rfl⟩) (.inl ⟨bs', h', hx⟩)

omit hp in
/-- C28. An attribute without a known type is refused. -/
theorem attr_not_implemented (env : Env) (r : Reader) :
    d.decode .notImplemented env r = .err .unimplemented r := rfl

/-! ### The converse fails for rigid bodies -/

omit hp

/-- An awake rigid body at the origin followed by nothing. -/
def cutBody : List Bool :=
  [false] ++ ((bounded 22 0 ++ (coord 0 0 ++ (coord 0 0 ++ coord 0 0))) ++
    (bits 2 3 ++ (bits 18 0 ++ (bits 18 0 ++ bits 18 0))))

/-- A decoder for the newest version. -/
def sampleDecoder : AttrDecoder :=
  ⟨⟨868#32, 32#32, 10#32⟩, ⟨⟨868#32, 32#32, 10#32⟩, 1#32, 2#32, 3#32, 4#32, 5#32⟩, true⟩

/-- C28 is false as stated: data that end after the rotation of an awake rigid body
decode as a body without velocities, which no encoding of an awake body is. -/
theorem attr_exact_fails : ¬∀ (d : AttrDecoder) (_ : d.product.version = d.version) (env : Env)
    (tag : AttributeTag) (r r' : Reader) (_ : r.Valid) (a : Attribute)
    (_ : d.decode tag env r = .ok a r'),
    ∃ bs, AttrEnc d.ctx tag a bs ∧ r.bits = bs ++ r'.bits := by
  intro H
  let c := quatComp 0
  let v : RigidBody := ⟨false, ⟨centi 0, centi 0, centi 0⟩, ⟨c, c, c, quatLargest c c c⟩, none, none⟩
  have hq : QuatEnc v.rotation (bits 2 3 ++ (bits 18 0 ++ (bits 18 0 ++ bits 18 0))) :=
    ⟨3, 0, 0, 0, by decide, by decide, by decide, rfl, .inr (.inr (.inr ⟨rfl, rfl⟩))⟩
  have hin : InClass 0 0#32 := by unfold InClass; decide
  have hl : Vec3f 10#32 v.location
      (bounded 22 0 ++ (coord 0 0 ++ (coord 0 0 ++ coord 0 0))) :=
    ⟨⟨0, 0, 0⟩, ⟨0, by decide, hin, hin, hin, rfl⟩, rfl⟩
  have ht : RigidBodyTrunc sampleDecoder.ctx v cutBody [] :=
    ⟨rfl, .inl rfl, _, _, [], [], hl, .inl ⟨by decide, hq⟩, by simp [cutBody, v],
      .inl ⟨by decide, rfl⟩, .inl ⟨by decide, rfl⟩⟩
  have hv : (Reader.mk cutBody 0).Valid := ⟨by simp, by simp⟩
  obtain ⟨r', hd, _⟩ := ((decode_spec sampleDecoder rfl .rigidBody).okIff Env.default64
    ⟨cutBody, 0⟩ hv (Nat.le_refl _) (.rigidBody v) []).2 (.inr ⟨rfl, v, rfl, ht⟩)
  obtain ⟨bs, he, _⟩ := H sampleDecoder rfl Env.default64 .rigidBody _ r' hv _ hd
  cases he with
  | rigidBody he =>
    obtain ⟨_, _, _, _, _, _, ⟨_, x, hx, _⟩ | ⟨hx, _⟩, _⟩ := he
    · cases hx
    · exact hx rfl

/-! ### Instances -/

/-- A PlayStation id: sixteen name bytes of which three before the first zero. -/
example (d : Ctx) (hd : 1 ≤ d.net.toInt) : AttrEnc d .uniqueId
    (.uniqueId ⟨2#8, .playStation 77#64 ['b', 'o', 'b'] (List.replicate 16 9#8), 1#8⟩)
    (field 8 2#8 ++ ((bytes ([98#8, 111#8, 98#8, 0#8] ++ List.replicate 12 7#8) ++
      (bytes (List.replicate 16 9#8) ++ field 64 77#64)) ++ field 8 1#8)) := by
  refine .uniqueId ⟨_, .playStation _ (by simp) ?_ (by simp [hd]), rfl⟩
  exact (isCp1252_iff _ _).2 (by decide)

/-- Two products in one slot: a painted item and one without a value. -/
example : AttrEnc sampleDecoder.ctx .loadoutOnline
    (.loadoutOnline [[⟨true, 2#32, .newPaint 13#32⟩, ⟨false, 9#32, .absent⟩]])
    (field 8 1#8 ++ ((field 8 2#8 ++ (([true] ++ (field 32 2#32 ++ bits 31 13)) ++
      (([false] ++ (field 32 9#32 ++ [])) ++ []))) ++ [])) := by
  have hver : sampleDecoder.ctx.atLeast 868 18 0 := .inr ⟨by decide, .inl (by decide)⟩
  refine .loadoutOnline ⟨_, by decide, .cons ⟨_, by decide, .cons ⟨_, .newPaint (by decide) (by decide)
    hver ⟨by decide, rfl⟩, rfl⟩ (.cons ⟨_, .absent (by decide) (by decide) (by decide)
    (by decide) (by decide), rfl⟩ .nil), rfl⟩ .nil, rfl⟩

end Boxcars.Props
