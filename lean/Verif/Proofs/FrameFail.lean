import Verif.Proofs.FramesSpec
import Verif.Proofs.ESpec
import Verif.Spec.Failure
/-!
# The frame decoder fails exactly as described
-/
namespace Boxcars
open Spec

variable {ε : Type} {N : Nat}

theorem getIndex_espec {α : Type} (xs : List α) (id : I32) :
    ESpec N (getIndex xs id : BM ε (Option α)) (fun _ _ => False) :=
  ESpec.never fun env r e r' h => by cases h

theorem gateNever_espec {α : Type} (n : Nat) (hn : 64 ≤ n) (e : ε) (m : BM ε α) :
    ESpec N (do refill; let look ← lookaheadBits; if look < n then BM.fail e else m)
      (fun e' _ => e' = e) := by
  refine (ESpec.single e (gateNever n hn e m) ?_).congr fun e' i _ => by simp
  intro env r e' r' hv hx
  obtain ⟨l, h1, h2, h3, h4⟩ := refill_run (ε := ε) env r hv
  rw [BM.bind_ok h4, BM.bind_ok (show lookaheadBits env ⟨r.bits, l⟩ = .ok l ⟨r.bits, l⟩ from rfl),
    if_pos (by omega)] at hx
  cases hx; rfl

/-- Reading a bit fails on the empty input only. -/
theorem bit_espec (e : ε) : ESpec N (BM.okOr e readBit) (fun e' i => e' = e ∧ i = []) := by
  refine (ESpec.okOr e BSpec.readBit).congr fun e' i _ => ?_
  cases i <;> simp

theorem field_exists {w : Nat} {i : List Bool} (h : w ≤ i.length) :
    ∃ (x : BitVec w) (o : List Bool), i = field w x ++ o :=
  ⟨_, _, field_append_iff.2 ⟨h, rfl, rfl⟩⟩

/-- Reading a word fails on fewer than 32 bits. -/
theorem word_espec (e : ε) : ESpec N (BM.okOr e readU32) (fun e' i => e' = e ∧ i.length < 32) := by
  refine (ESpec.okOr e BSpec.readU32).congr fun e' i _ => ?_
  constructor
  · rintro ⟨rfl, h⟩
    refine ⟨rfl, Nat.lt_of_not_le fun hc => ?_⟩
    obtain ⟨x, o, hx⟩ := field_exists hc
    exact h x o hx
  · rintro ⟨rfl, h⟩
    refine ⟨rfl, fun a o h2 => ?_⟩
    rw [h2, List.length_append, field_length] at h
    omega

namespace FrameDecoder

theorem propId_espec (c : CacheInfo) (hc : c.Ok) (e : ε) :
    ESpec N (do refill; let look ← lookaheadBits
                if look < c.propIdBits + 1 then BM.fail e
                else peekBitsMaxComputed c.propIdBits c.maxPropId.toNat)
      (fun e' i => e' = e ∧ (c.maxPropId.toInt < 0 ∨ i.length < c.maxPropId.toNat.log2 + 1)) := by
  rcases hc with ⟨h1, h2, _⟩ | ⟨h1, h2⟩
  · rw [h2]
    refine (ESpec.gateFail e ?_ (Peek.bounded _)).congr fun e' i _ => ?_
    · have : c.maxPropId.toNat < 2 ^ 32 := c.maxPropId.isLt
      by_cases h0 : c.maxPropId.toNat = 0
      · rw [h0]; decide
      · have := (Nat.log2_lt h0).2 this
        omega
    · constructor
      · rintro ⟨a, b⟩; exact ⟨a, .inr b⟩
      · rintro ⟨a, b | b⟩
        · omega
        · exact ⟨a, b⟩
  · refine (gateNever_espec _ (by omega) e _).congr fun e' i _ => ?_
    constructor
    · rintro rfl; exact ⟨rfl, .inl h1⟩
    · exact fun h => h.1

/-- The errors of the attribute decoder. -/
def attrFail (ad : AttrDecoder) : AttrFail := fun tag => ESpec.errs (ad.decode tag)

theorem limit_eq (c : CacheInfo) (h : 0 ≤ c.maxPropId.toInt) :
    c.cls.limit.toNat = c.maxPropId.toNat := by
  show c.maxPropId.toInt.toNat = _; rw [toInt_of_nonneg h]; rfl

theorem streamIdAt_iff (c : CacheInfo) (s : StreamId) (i j : Bits) :
    StreamIdAt c.cls s i j ↔ 0 ≤ c.maxPropId.toInt ∧ c.maxPropId.toNat.log2 + 1 ≤ i.length ∧
      s.toNat < max c.maxPropId.toNat 1 ∧ i = bounded c.maxPropId.toNat s.toNat ++ j := by
  unfold StreamIdAt
  constructor
  · rintro ⟨h0, h1⟩
    have h0 : 0 ≤ c.maxPropId.toInt := h0
    rw [limit_eq c h0] at h1
    exact ⟨h0, h1⟩
  · rintro ⟨h0, h1⟩
    rw [limit_eq c h0]
    exact ⟨h0, h1⟩

theorem short_iff (c : CacheInfo) (i : Bits) :
    (c.cls.limit < 0 ∨ i.length < c.cls.limit.toNat.log2 + 1) ↔
      (c.maxPropId.toInt < 0 ∨ i.length < c.maxPropId.toNat.log2 + 1) := by
  by_cases h : 0 ≤ c.maxPropId.toInt
  · rw [limit_eq c h]; rfl
  · constructor
    · intro _; exact .inl (by omega)
    · intro _; exact .inl (by show c.maxPropId.toInt < 0; omega)

/-- The raw number read is the stream id. -/
theorem propId_rel (c : CacheInfo) (hc : c.Ok) (raw : Nat) (i o : Bits) :
    (0 ≤ c.maxPropId.toInt ∧ c.propIdBits + 1 ≤ i.length ∧
      raw < max c.maxPropId.toNat 1 ∧ i = bounded c.maxPropId.toNat raw ++ o) ↔
    (StreamIdAt c.cls (BitVec.ofNat 32 raw) i o ∧ (BitVec.ofNat 32 raw).toNat = raw) := by
  rw [streamIdAt_iff]
  have hM : c.maxPropId.toNat < 2 ^ 32 := c.maxPropId.isLt
  have hb : 0 ≤ c.maxPropId.toInt → c.propIdBits = c.maxPropId.toNat.log2 := by
    intro h
    rcases hc with ⟨_, h0, _⟩ | ⟨h0, _⟩
    · exact h0
    · omega
  constructor
  · rintro ⟨h1, h2, h3, h4⟩
    have hraw : (BitVec.ofNat 32 raw).toNat = raw := by
      rw [BitVec.toNat_ofNat]; apply Nat.mod_eq_of_lt; omega
    rw [hraw, ← hb h1]
    exact ⟨⟨h1, h2, h3, h4⟩, rfl⟩
  · rintro ⟨⟨h1, h2, h3, h4⟩, h5⟩
    rw [h5] at h3 h4
    exact ⟨h1, by rw [hb h1]; exact h2, h3, h4⟩

theorem cls_attr (c : CacheInfo) (s : StreamId) :
    c.cls.attr s = (c.attributes.get s).map fun a => (a.attr, a.objectId) := rfl

theorem updateLoop_espec (ad : AttrDecoder) (hp : ad.product.version = ad.version) (id : ActorId)
    (obj : ObjectId) (c : CacheInfo) (hc : c.Ok) (fuel : Nat) (N : Nat) (hN : N < fuel)
    (st : FrameSt) :
    ESpec N (updateLoop ad id obj c fuel st)
      (fun p i => ∃ us, PropsFail (AttrAccepts ad.ctx) (attrFail ad) c.cls id obj us p.1 i ∧
        p.2 = { st with updated := st.updated ++ us }) := by
  induction fuel generalizing N st with
  | zero => omega
  | succ fuel ih =>
    have e : updateLoop ad id obj c (fuel + 1) st =
        (req "Is prop present" st readBit >>= fun more =>
          if more then
            (do refill; let look ← lookaheadBits
                if look < c.propIdBits + 1 then BM.fail (.notEnoughDataFor "Prop id", st)
                else peekBitsMaxComputed c.propIdBits c.maxPropId.toNat) >>= fun raw =>
            match c.attributes.get (BitVec.ofNat 32 raw) with
            | none => BM.fail (.missingAttribute id obj (BitVec.ofNat 32 raw), st)
            | some attr =>
              BM.mapErr (fun e => (attrErr id obj (BitVec.ofNat 32 raw) e, st))
                (ad.decode attr.attr) >>= fun value =>
              updateLoop ad id obj c fuel
                { st with updated := st.updated ++ [⟨id, BitVec.ofNat 32 raw, attr.objectId, value⟩] }
          else pure st) := by
      rw [updateLoop]
      congr 1
      funext more
      cases more
      · rfl
      · rw [if_pos rfl, if_pos rfl, ← gate_bind]
        rfl
    rw [e]
    refine (ESpec.bind (BSpec.readBit.okOr _) (bit_espec _) (E' := fun more p j => more = true ∧
        ((p = (.notEnoughDataFor "Prop id", st) ∧
          (c.maxPropId.toInt < 0 ∨ j.length < c.maxPropId.toNat.log2 + 1)) ∨
        ∃ raw k, (0 ≤ c.maxPropId.toInt ∧ c.propIdBits + 1 ≤ j.length ∧
          raw < max c.maxPropId.toNat 1 ∧ j = bounded c.maxPropId.toNat raw ++ k) ∧
        ((c.attributes.get (BitVec.ofNat 32 raw) = none ∧
          p = (.missingAttribute id obj (BitVec.ofNat 32 raw), st)) ∨
        ∃ attr, c.attributes.get (BitVec.ofNat 32 raw) = some attr ∧
          ((∃ e, attrFail ad attr.attr e k ∧ p = (attrErr id obj (BitVec.ofNat 32 raw) e, st)) ∨
          ∃ v l, AttrAccepts ad.ctx attr.attr v k l ∧
          ∃ us, PropsFail (AttrAccepts ad.ctx) (attrFail ad) c.cls id obj us p.1 l ∧
          p.2 = { st with updated :=
            (st.updated ++ [⟨id, BitVec.ofNat 32 raw, attr.objectId, v⟩]) ++ us })))) ?_).congr ?_
    · intro more i j hi hr
      have hj : j.length < fuel := by rw [hr, List.length_cons] at hi; omega
      cases more with
      | false => refine (ESpec.pure _).congr fun _ _ _ => ?_; simp
      | true =>
        simp only [if_true]
        refine (ESpec.bind' (propId_spec c hc _) (propId_espec c hc _) (E' := fun raw p k =>
          ((c.attributes.get (BitVec.ofNat 32 raw) = none ∧
            p = (.missingAttribute id obj (BitVec.ofNat 32 raw), st)) ∨
          ∃ attr, c.attributes.get (BitVec.ofNat 32 raw) = some attr ∧
            ((∃ e, attrFail ad attr.attr e k ∧ p = (attrErr id obj (BitVec.ofNat 32 raw) e, st)) ∨
            ∃ v l, AttrAccepts ad.ctx attr.attr v k l ∧
            ∃ us, PropsFail (AttrAccepts ad.ctx) (attrFail ad) c.cls id obj us p.1 l ∧
            p.2 = { st with updated :=
              (st.updated ++ [⟨id, BitVec.ofNat 32 raw, attr.objectId, v⟩]) ++ us })))
          fun raw => ?_).congr ?_
        · cases hg : c.attributes.get (BitVec.ofNat 32 raw) with
          | none => refine (ESpec.fail _).congr fun _ _ _ => ?_; simp
          | some attr =>
            refine (ESpec.bind' ((decode_spec ad hp attr.attr).mapErr _)
              ((ESpec.self (decode_spec ad hp attr.attr)).mapErr _) fun v =>
              ih j.length hj { st with updated := st.updated ++ [⟨id, BitVec.ofNat 32 raw, attr.objectId, v⟩] }).congr ?_
            intro p k _
            simp only [reduceCtorEq, false_and, false_or, Option.some.injEq, exists_eq_left']
            rfl
        · intro p i _
          simp only [true_and]
    · rintro ⟨fe, st'⟩ i _
      constructor
      · rintro (⟨h, rfl⟩ | ⟨more, j, rfl, rfl, h⟩)
        · cases h
          exact ⟨[], .flag, by simp⟩
        · rcases h with ⟨h, hs⟩ | ⟨raw, k, hid, h⟩
          · cases h
            exact ⟨[], .streamId ((short_iff c j).2 hs), by simp⟩
          · obtain ⟨hs, hraw⟩ := (propId_rel c hc raw j k).1 hid
            rcases h with ⟨hg, h⟩ | ⟨attr, hg, h⟩
            · cases h
              exact ⟨[], .undeclared hs (by rw [cls_attr, hg]; rfl), by simp⟩
            · have hg' : c.cls.attr (BitVec.ofNat 32 raw) = some (attr.attr, attr.objectId) := by
                rw [cls_attr, hg]; rfl
              rcases h with ⟨e, he, h⟩ | ⟨v, l, hv, us, hu, h⟩
              · cases h
                refine ⟨[], ?_, by simp⟩
                by_cases hun : e = .unimplemented
                · subst hun
                  exact .unimplemented hs hg' he
                · have : attrErr id obj (BitVec.ofNat 32 raw) e =
                      .attributeError id obj (BitVec.ofNat 32 raw) e := by
                    cases e <;> first | rfl | exact absurd rfl hun
                  rw [this]
                  exact .value hs hg' he hun
              · refine ⟨_, .next hs hg' hv hu, ?_⟩
                simp only at h
                rw [h]
                simp
      · rintro ⟨us, h, hst⟩
        simp only at h hst
        subst hst
        cases h with
        | flag => exact .inl ⟨by simp, rfl⟩
        | @streamId j hs => exact .inr ⟨true, j, rfl, rfl, .inl ⟨by simp, (short_iff c j).1 hs⟩⟩
        | @undeclared s j k hs hn =>
          have hofn : BitVec.ofNat 32 s.toNat = s := by simp
          refine .inr ⟨true, j, rfl, rfl, .inr ⟨s.toNat, k, (propId_rel c hc _ _ _).2 (by rw [hofn]; exact ⟨hs, rfl⟩), .inl ?_⟩⟩
          rw [hofn]
          rw [cls_attr, Option.map_eq_none_iff] at hn
          exact ⟨hn, by simp⟩
        | @unimplemented s tag ob j k hs hg he =>
          have hofn : BitVec.ofNat 32 s.toNat = s := by simp
          rw [cls_attr] at hg
          obtain ⟨attr, hg0, hh⟩ := Option.map_eq_some_iff.1 hg
          cases hh
          refine .inr ⟨true, j, rfl, rfl, .inr ⟨s.toNat, k, (propId_rel c hc _ _ _).2 (by rw [hofn]; exact ⟨hs, rfl⟩), .inr ⟨attr, by rw [hofn]; exact hg0, .inl ⟨_, he, ?_⟩⟩⟩⟩
          rw [hofn]; simp [attrErr]
        | @value s tag ob j k fe hs hg he hun =>
          have hofn : BitVec.ofNat 32 s.toNat = s := by simp
          rw [cls_attr] at hg
          obtain ⟨attr, hg0, hh⟩ := Option.map_eq_some_iff.1 hg
          cases hh
          refine .inr ⟨true, j, rfl, rfl, .inr ⟨s.toNat, k, (propId_rel c hc _ _ _).2 (by rw [hofn]; exact ⟨hs, rfl⟩), .inr ⟨attr, by rw [hofn]; exact hg0, .inl ⟨_, he, ?_⟩⟩⟩⟩
          rw [hofn]
          cases fe <;> first | (simp [attrErr]; done) | exact absurd rfl hun
        | @next s tag ob v us fe j k l hs hg hv hu =>
          have hofn : BitVec.ofNat 32 s.toNat = s := by simp
          rw [cls_attr] at hg
          obtain ⟨attr, hg0, hh⟩ := Option.map_eq_some_iff.1 hg
          cases hh
          refine .inr ⟨true, j, rfl, rfl, .inr ⟨s.toNat, k, (propId_rel c hc _ _ _).2 (by rw [hofn]; exact ⟨hs, rfl⟩), .inr ⟨attr, by rw [hofn]; exact hg0, .inr ⟨v, l, hv, us, hu, ?_⟩⟩⟩⟩
          rw [hofn]
          simp

theorem when_word_length {b : Bool} {v : Option U32} {nm : Bits}
    (h : When (b = true) Word v nm) : nm.length = if b then 32 else 0 := by
  unfold When at h
  cases b with
  | true => obtain ⟨_, x, _, h⟩ | ⟨h, _⟩ := h
            · rw [h]; simp [field_length]
            · simp at h
  | false => obtain ⟨h, _⟩ | ⟨_, _, rfl⟩ := h
             · cases h
             · rfl

theorem parseNewActor_espec (d : FrameDecoder) (hw : d.Wf) (id : ActorId) :
    ESpec N (d.parseNewActor id) (NewFail d.netOf) := by
  have e : d.parseNewActor id =
      (BM.okOr (.notEnoughDataFor "New Actor") (optWhen d.doParseName readU32) >>= fun nameId =>
        BM.okOr (.notEnoughDataFor "New Actor") readBit >>= fun _ =>
        BM.okOr (.notEnoughDataFor "New Actor") readU32 >>= fun objectId =>
        getIndex d.spawns objectId >>= fun spawn =>
        match spawn with
        | none => BM.fail (.objectIdOutOfRange objectId)
        | some spawn =>
          BM.okOr (.notEnoughDataFor "New Actor")
            (Trajectory.fromSpawn spawn d.version.netVersion) >>= fun traj =>
          pure ⟨id, nameId, objectId, traj⟩) := by
    unfold parseNewActor optWhen
    cases d.doParseName
    · rfl
    · funext env r
      simp only [Bind.bind, BM.bind, BM.okOr, BM.mapErr, if_true, Pure.pure, BM.pure]
      cases readU32 env r <;> rfl
  rw [e]
  have hn : ∀ N, BSpec N (optWhen d.doParseName readU32)
      (ofB (When (d.doParseName = true) Word)) := fun N => when_spec Iff.rfl word_spec
  refine (ESpec.bind' ((hn _).okOr _) (ESpec.okOr _ (hn _)) fun nm =>
    ESpec.bind' (BSpec.readBit.okOr _) (bit_espec _) fun b =>
    ESpec.bind' (BSpec.readU32.okOr _) (word_espec _) fun obj =>
    ESpec.bind' (getIndex_spec hw.spawns obj) (getIndex_espec _ _)
      (E' := fun sp e i => (sp = none ∧ e = .objectIdOutOfRange obj) ∨
        ∃ s, sp = some s ∧ e = .notEnoughDataFor "New Actor" ∧
          ∀ t o, ¬ofB (SpawnEnc d.version.netVersion s) t i o) fun sp => ?_).congr ?_
  · cases sp with
    | none => refine (ESpec.fail _).congr fun _ _ _ => ?_; simp
    | some s =>
      refine (ESpec.bind' ((BSpec.spawn _ s).okOr _) (ESpec.okOr _ (BSpec.spawn _ s)) fun t =>
        ESpec.pure _).congr fun e i _ => ?_
      simp
  · intro fe i _
    have hsp : ∀ o, d.netOf.spawn o = nth d.spawns o := fun _ => rfl
    have hnm : d.netOf.named = d.doParseName := rfl
    constructor
    · rintro (⟨rfl, h⟩ | ⟨nm, _, ⟨bs, hnm, rfl⟩, ⟨rfl, rfl⟩ | ⟨b, _, rfl, ⟨rfl, h⟩ | ⟨obj, _, rfl,
        h | ⟨sp, _, ⟨rfl, rfl⟩, ⟨hs, rfl⟩ | ⟨s, hs, rfl, h⟩⟩⟩⟩⟩)
      · refine .short ?_
        rw [hnm]
        refine Nat.lt_of_not_le fun hc => ?_
        cases hd : d.doParseName with
        | false => exact h none i ⟨[], .inr ⟨by simp [hd], rfl, rfl⟩, rfl⟩
        | true =>
          rw [hd] at hc
          obtain ⟨x, o, hx⟩ := field_exists (w := 32) (i := i) (by simp at hc; omega)
          exact h (some x) o ⟨_, .inl ⟨hd, x, rfl, rfl⟩, hx⟩
      · have := when_word_length hnm
        refine .short ?_
        rw [List.append_nil, this]
        show _ < if d.doParseName then _ else _
        split <;> omega
      · have := when_word_length hnm
        refine .short ?_
        rw [List.length_append, this, List.length_cons]
        show _ < if d.doParseName then _ else _
        split <;> omega
      · exact h.elim
      · exact .object ⟨nm, bs, b, hnm, rfl⟩ hs
      · refine .place ⟨nm, bs, b, hnm, rfl⟩ hs fun t ts k hse hk => ?_
        exact h t k ⟨ts, hse, hk⟩
    · intro h
      cases h with
      | short h =>
        rw [hnm] at h
        have key : (∀ a o, ¬ofB (When (d.doParseName = true) Word) a i o) ∨
            ∃ v nm o, When (d.doParseName = true) Word v nm ∧ i = nm ++ o ∧ o.length < 33 := by
          cases hd : d.doParseName with
          | false =>
            rw [hd] at h
            exact .inr ⟨none, [], i, .inr ⟨by simp, rfl, rfl⟩, rfl, by simpa using h⟩
          | true =>
            rw [hd] at h
            by_cases hc : 32 ≤ i.length
            · obtain ⟨x, o, rfl⟩ := field_exists hc
              refine .inr ⟨some x, _, o, .inl ⟨rfl, x, rfl, rfl⟩, rfl, ?_⟩
              simp [field_length] at h
              omega
            · refine .inl ?_
              rintro a o ⟨bs, hb, rfl⟩
              have := when_word_length hb
              simp at this
              simp at hc
              omega
        rcases key with key | ⟨v, nm, o, h1, h2, h3⟩
        · exact .inl ⟨rfl, key⟩
        · refine .inr ⟨v, o, ⟨nm, h1, h2⟩, ?_⟩
          cases o with
          | nil => exact .inl ⟨rfl, rfl⟩
          | cons b o => exact .inr ⟨b, o, rfl, .inl ⟨rfl, by simp at h3; omega⟩⟩
      | object hh hs =>
        obtain ⟨v, nm, b, hw', rfl⟩ := hh
        exact .inr ⟨v, _, ⟨nm, hw', rfl⟩, .inr ⟨b, _, rfl, .inr ⟨_, _, rfl, .inr ⟨_, _, ⟨rfl, rfl⟩,
          .inl ⟨hs, rfl⟩⟩⟩⟩⟩
      | place hh hs hp =>
        obtain ⟨v, nm, b, hw', rfl⟩ := hh
        refine .inr ⟨v, _, ⟨nm, hw', rfl⟩, .inr ⟨b, _, rfl, .inr ⟨_, _, rfl, .inr ⟨_, _, ⟨rfl, rfl⟩,
          .inr ⟨_, hs, rfl, ?_⟩⟩⟩⟩⟩
        rintro t o ⟨ts, h1, h2⟩
        exact hp t ts o h1 h2

/-! ### Records -/

theorem head_espec (d : FrameDecoder) (hw : d.Wf) (e : ε) :
    ESpec N (do
      refill; let look ← lookaheadBits
      if look < d.channelBits + 1 + 1 then BM.fail e
      else
        let raw ← peekBitsMaxComputed d.channelBits d.maxChannels.toNat
        let alive ← peekAndConsume 1
        pure (raw, alive))
      (fun e' i => e' = e ∧ i.length < d.channelBits + 2) := by
  rw [hw.channelBits]
  have := log2_lt_32 d.maxChannels
  exact ESpec.gateFail e (by omega) ((Peek.bounded d.maxChannels.toNat).bind fun raw _ _ _ =>
    ((Peek.peek 1).bind (k := 0) fun alive _ _ _ => Peek.pure (raw, alive)).mono (by omega))

/-- What the head of a record says. -/
theorem head_rel (d : FrameDecoder) (hw : d.Wf) (raw alive : Nat) (i o : Bits) :
    (d.channelBits + 2 ≤ i.length ∧ raw < max d.maxChannels.toNat 1 ∧
      ∃ b : Bool, alive = b.toNat ∧ i = bounded d.maxChannels.toNat raw ++ (b :: o)) ↔
    ((BitVec.ofNat 32 raw).toNat = raw ∧
      ∃ b : Bool, alive = b.toNat ∧ ActorIdAt d.netOf (BitVec.ofNat 32 raw) i (b :: o)) := by
  have hmx : d.maxChannels.toNat < 2 ^ 32 := d.maxChannels.isLt
  have hch : d.netOf.channels.log2 = d.channelBits := hw.channelBits.symm
  unfold ActorIdAt InChannels Spec.actorId
  rw [hch]
  constructor
  · rintro ⟨h1, h2, b, h3, h4⟩
    have hraw : (BitVec.ofNat 32 raw).toNat = raw := by
      rw [BitVec.toNat_ofNat]; apply Nat.mod_eq_of_lt; omega
    rw [hraw]
    exact ⟨rfl, b, h3, h1, h2, h4⟩
  · rintro ⟨h0, b, h3, h1, h2, h4⟩
    rw [h0] at h2 h4
    exact ⟨h1, h2, b, h3, h4⟩

theorem cls_eq_none {d : FrameDecoder} {o : ObjectId} :
    d.netOf.cls o = none ↔ ∀ ci, nth d.objectIndAttributes o ≠ some (some ci) := by
  unfold netOf
  simp only
  rcases nth d.objectIndAttributes o with _ | _ | ci <;> simp

theorem eventBody_espec (d : FrameDecoder) (hw : d.Wf) (ad : AttrDecoder)
    (hp : ad.product.version = ad.version) (fuel N : Nat) (hN : N ≤ fuel) (st : FrameSt)
    (hst : d.ActorsOk st.actors) :
    ESpec N (eventBody d ad fuel st) (fun p i =>
      ∃ us, EventFail d.netOf (AttrAccepts ad.ctx) (attrFail ad) (known st.actors) us p.1 i ∧
        p.2 = { st with updated := st.updated ++ us }) := by
  unfold eventBody
  refine (ESpec.bind' (head_spec d hw _) (head_espec d hw _) (E' := fun q p j => q.2 = 1 ∧
      ((p = (.notEnoughDataFor "Is new actor", st) ∧ j = []) ∨ ∃ isNew k, j = isNew :: k ∧
        if isNew then
          (∃ e, NewFail d.netOf e k ∧ p = (e, st)) ∨
          (∃ a l, (a.actorId = BitVec.ofNat 32 q.1 ∧ NewRel d.netOf a k l) ∧
            (∀ ci, nth d.objectIndAttributes a.objectId ≠ some (some ci)) ∧
            p = (.missingCache (BitVec.ofNat 32 q.1) a.objectId, st))
        else
          (st.actors.get (BitVec.ofNat 32 q.1) = none ∧
            p = (.missingActor (BitVec.ofNat 32 q.1), st)) ∨
          (∃ obj c, st.actors.get (BitVec.ofNat 32 q.1) = some (obj, c) ∧
            ∃ us, PropsFail (AttrAccepts ad.ctx) (attrFail ad) c.cls (BitVec.ofNat 32 q.1) obj us
              p.1 k ∧ p.2 = { st with updated := st.updated ++ us }))) fun q => ?_).congr ?_
  · obtain ⟨raw, alive⟩ := q
    simp only
    by_cases ha : (alive == 1) = true
    · simp only [if_pos ha]
      have ha' : alive = 1 := by simpa using ha
      simp only [ha', true_and]
      refine (ESpec.bind' (BSpec.readBit.okOr _) (bit_espec _) fun isNew => ?_)
      cases isNew with
      | true =>
        simp only [if_true]
        refine (ESpec.bind' ((parseNewActor_spec d hw _).mapErr _)
          ((parseNewActor_espec d hw _).mapErr _) (E' := fun a p i =>
            (∀ ci, nth d.objectIndAttributes a.objectId ≠ some (some ci)) ∧
            p = (.missingCache (BitVec.ofNat 32 raw) a.objectId, st)) fun a =>
          (ESpec.bind' (getIndex_spec hw.caches _) (getIndex_espec _ _) (E' := fun c p i =>
            (∀ ci, c ≠ some (some ci)) ∧
            p = (.missingCache (BitVec.ofNat 32 raw) a.objectId, st)) fun c => ?_).congr ?_).congr ?_
        · rcases c with _ | _ | ci
          · refine (ESpec.fail _).congr fun _ _ _ => ?_; simp
          · refine (ESpec.fail _).congr fun _ _ _ => ?_; simp
          · refine (ESpec.pure _).congr fun _ _ _ => ?_; simp
        · intro p i _
          simp only [false_or]
          constructor
          · rintro ⟨_, _, ⟨rfl, rfl⟩, h⟩; exact h
          · intro h; exact ⟨_, i, ⟨rfl, rfl⟩, h⟩
        · intro p i _
          rfl
      | false =>
        simp only [Bool.false_eq_true, if_false]
        cases hg : st.actors.get (BitVec.ofNat 32 raw) with
        | none => refine (ESpec.fail _).congr fun _ _ _ => ?_; simp
        | some p =>
          obtain ⟨obj, c⟩ := p
          refine (updateLoop_espec ad hp _ obj c (hw.cacheOk _ _ (hst.cache _ _ _ hg)) (fuel + 1) N
            (by omega) st).congr fun p i _ => ?_
          simp
    · simp only [if_neg ha]
      have ha' : ¬alive = 1 := by simpa using ha
      refine (ESpec.pure _).congr fun p i _ => ?_
      simp [ha']
  · rintro ⟨fe, st'⟩ i _
    have hch : d.netOf.channels.log2 = d.channelBits := hw.channelBits.symm
    constructor
    · rintro (⟨h, hl⟩ | ⟨⟨raw, alive⟩, j, hh, ha, h⟩)
      · cases h
        exact ⟨[], .actor (by rw [hch]; exact hl), by simp⟩
      · obtain ⟨hraw, b, hb, hat⟩ := (head_rel d hw raw alive i j).1 hh
        simp only at ha
        subst ha
        have : b = true := by cases b <;> simp at hb ⊢
        subst this
        rcases h with ⟨h, rfl⟩ | ⟨isNew, k, rfl, h⟩
        · cases h
          exact ⟨[], .isNew hat, by simp⟩
        · cases isNew with
          | true =>
            simp only [if_true] at h
            rcases h with ⟨e, he, h⟩ | ⟨a, l, ⟨h1, h2⟩, h3, h⟩
            · cases h
              exact ⟨[], .announce hat he, by simp⟩
            · cases h
              rw [← h1] at hat ⊢
              exact ⟨[], .classless hat h2 (cls_eq_none.2 h3), by simp⟩
          | false =>
            simp only [Bool.false_eq_true, if_false] at h
            rcases h with ⟨h1, h⟩ | ⟨obj, c, h1, us, h2, h⟩
            · cases h
              exact ⟨[], .unknown hat (by unfold known; rw [h1]; rfl), by simp⟩
            · exact ⟨us, .props hat (by unfold known; rw [h1]; rfl)
                (cls_eq_some.2 ⟨c, hst.cache _ _ _ h1, rfl⟩) h2, h⟩
    · rintro ⟨us, h, hs⟩
      simp only at h hs
      subst hs
      have at' : ∀ {id : ActorId} {j}, ActorIdAt d.netOf id i (true :: j) →
          (d.channelBits + 2 ≤ i.length ∧ id.toNat < max d.maxChannels.toNat 1 ∧
          ∃ b : Bool, 1 = b.toNat ∧ i = bounded d.maxChannels.toNat id.toNat ++ (b :: j)) := by
        intro id j h
        refine (head_rel d hw id.toNat 1 i j).2 ?_
        have : BitVec.ofNat 32 id.toNat = id := by simp
        rw [this]
        exact ⟨rfl, true, rfl, h⟩
      have hofn : ∀ id : I32, BitVec.ofNat 32 id.toNat = id := by intro id; simp
      cases h with
      | actor h => exact .inl ⟨by simp, by rw [← hch]; exact h⟩
      | @isNew id _ hat =>
        exact .inr ⟨(id.toNat, 1), [], at' hat, rfl, .inl ⟨by simp, rfl⟩⟩
      | @announce id _ j _ hat he =>
        refine .inr ⟨(id.toNat, 1), _, at' hat, rfl, .inr ⟨true, j, rfl, ?_⟩⟩
        simp only [if_true]
        exact .inl ⟨_, he, by simp⟩
      | @classless a _ j o hat hn hc =>
        refine .inr ⟨(a.actorId.toNat, 1), _, at' hat, rfl, .inr ⟨true, j, rfl, ?_⟩⟩
        simp only [if_true, hofn]
        exact .inr ⟨a, o, ⟨rfl, hn⟩, cls_eq_none.1 hc, by simp⟩
      | @unknown id _ j hat hk =>
        refine .inr ⟨(id.toNat, 1), _, at' hat, rfl, .inr ⟨false, j, rfl, ?_⟩⟩
        simp only [Bool.false_eq_true, if_false, hofn]
        unfold known at hk
        rw [Option.map_eq_none_iff] at hk
        exact .inl ⟨hk, by simp⟩
      | @props id obj c us _ _ j hat hk hc hf =>
        refine .inr ⟨(id.toNat, 1), _, at' hat, rfl, .inr ⟨false, j, rfl, ?_⟩⟩
        simp only [Bool.false_eq_true, if_false, hofn]
        obtain ⟨ci, hci, rfl⟩ := cls_eq_some.1 hc
        unfold known at hk
        obtain ⟨⟨ob, c'⟩, hg, rfl⟩ := Option.map_eq_some_iff.1 hk
        have := hst.cache _ _ _ hg
        rw [hci] at this
        cases this
        exact .inr ⟨ob, ci, hg, us, hf, rfl⟩

theorem actorLoop_espec (d : FrameDecoder) (hw : d.Wf) (ad : AttrDecoder)
    (hp : ad.product.version = ad.version) (fuel N : Nat) (hN : N < fuel) (st : FrameSt)
    (hst : d.ActorsOk st.actors) :
    ESpec N (actorLoop d ad fuel st) (fun p i =>
      ∃ es us, EventsFail d.netOf (AttrAccepts ad.ctx) (attrFail ad) (known st.actors) es us p.1 i ∧
        p.2 = { es.foldl d.applyEvent st with
          updated := (es.foldl d.applyEvent st).updated ++ us }) := by
  induction fuel generalizing N st with
  | zero => omega
  | succ fuel ih =>
    rw [actorLoop_succ]
    refine (ESpec.bind (BSpec.readBit.okOr _) (bit_espec _) (E' := fun more p j => more = true ∧
      ((∃ us, EventFail d.netOf (AttrAccepts ad.ctx) (attrFail ad) (known st.actors) us p.1 j ∧
        p.2 = { st with updated := st.updated ++ us }) ∨
      ∃ st1 k, (d.channelBits + 2 ≤ j.length ∧
        ∃ e, EventRel d.netOf (AttrAccepts ad.ctx) (known st.actors) e j k ∧
          st1 = d.applyEvent st e) ∧
        ∃ es us, EventsFail d.netOf (AttrAccepts ad.ctx) (attrFail ad) (known st1.actors) es us
          p.1 k ∧ p.2 = { es.foldl d.applyEvent st1 with
            updated := (es.foldl d.applyEvent st1).updated ++ us })) ?_).congr ?_
    · intro more i j hi hr
      have hj : j.length < fuel := by rw [hr, List.length_cons] at hi; omega
      cases more with
      | false => refine (ESpec.pure _).congr fun _ _ _ => ?_; simp
      | true =>
        simp only [if_true, true_and]
        have hb := eventBody_spec d hw ad hp fuel j.length (by omega) st hst
        refine ESpec.bind hb (eventBody_espec d hw ad hp fuel j.length (by omega) st hst) ?_
        rintro st1 i' k hi' ⟨h1, e, he, rfl⟩
        have hs := (hb.suffix hi' ⟨h1, e, he, rfl⟩).length_le
        exact ih k.length (by omega) _ (applyEvent_ok hst e)
    · rintro ⟨fe, st'⟩ i _
      have hch : d.netOf.channels.log2 = d.channelBits := hw.channelBits.symm
      constructor
      · rintro (⟨h, rfl⟩ | ⟨more, j, rfl, rfl, h⟩)
        · cases h
          exact ⟨[], [], .flag, by simp⟩
        · rcases h with ⟨us, h1, h2⟩ | ⟨st1, k, ⟨h1, e, he, rfl⟩, es, us, h2, h3⟩
          · exact ⟨[], us, .event h1, h2⟩
          · rw [known_applyEvent hst he] at h2
            exact ⟨e :: es, us, .next (by rw [hch]; exact h1) he h2, h3⟩
      · rintro ⟨es, us, h, hs⟩
        simp only at h hs
        subst hs
        cases h with
        | flag => exact .inl ⟨by simp, rfl⟩
        | @event _ us _ j h => exact .inr ⟨true, j, rfl, rfl, .inl ⟨us, h, rfl⟩⟩
        | @next _ e es us _ j k hl he h =>
          rw [← known_applyEvent hst he] at h
          exact .inr ⟨true, j, rfl, rfl, .inr ⟨_, k, ⟨by rw [← hch]; exact hl, e, he, rfl⟩,
            es, us, h, rfl⟩⟩

/-! ### Frames -/

theorem decodeFrame_espec (d : FrameDecoder) (hw : d.Wf) (ad : AttrDecoder)
    (hp : ad.product.version = ad.version) (fuel : Nat) (hN : N < fuel)
    (actors : SegArray (ObjectId × CacheInfo)) (ha : d.ActorsOk actors) :
    ESpec N (d.decodeFrame ad fuel actors) (fun p i =>
      ∃ es us, FrameFail d.netOf (AttrAccepts ad.ctx) (attrFail ad) (known actors) es us p.1 i ∧
        p.2 = { es.foldl d.applyEvent ⟨actors, [], [], []⟩ with
          updated := (es.foldl d.applyEvent ⟨actors, [], [], []⟩).updated ++ us }) := by
  unfold decodeFrame
  have hl := actorLoop_spec d hw ad hp fuel N hN ⟨actors, [], [], []⟩ ha
  have hle := actorLoop_espec d hw ad hp fuel N hN ⟨actors, [], [], []⟩ ha
  refine (ESpec.bind' (BSpec.readU32.okOr _) (word_espec _) (E' := fun t p i =>
    (outOfRange t = true ∧ p = (.timeOutOfRange t, ⟨actors, [], [], []⟩)) ∨
    (outOfRange t = false ∧ ((p = (.notEnoughDataFor "Delta", ⟨actors, [], [], []⟩) ∧ i.length < 32) ∨
      ∃ dt j, i = field 32 dt ++ j ∧
        ((outOfRange dt = true ∧ p = (.deltaOutOfRange dt, ⟨actors, [], [], []⟩)) ∨
         (outOfRange dt = false ∧ (F32.eq t F32.zero && F32.eq dt F32.zero) = false ∧
          ∃ es us, EventsFail d.netOf (AttrAccepts ad.ctx) (attrFail ad) (known actors) es us p.1 j ∧
            p.2 = { es.foldl d.applyEvent ⟨actors, [], [], []⟩ with
              updated := (es.foldl d.applyEvent ⟨actors, [], [], []⟩).updated ++ us }))))) fun t => ?_).congr ?_
  · cases ht : outOfRange t with
    | true => simp only [if_true]; refine (ESpec.fail _).congr fun _ _ _ => ?_; simp
    | false =>
      simp only [Bool.false_eq_true, if_false, false_and, false_or, true_and]
      refine ESpec.bind' (BSpec.readU32.okOr _) (word_espec _) fun dt => ?_
      cases hd : outOfRange dt with
      | true => simp only [if_true]; refine (ESpec.fail _).congr fun _ _ _ => ?_; simp
      | false =>
        simp only [Bool.false_eq_true, if_false, false_and, false_or, true_and]
        cases hz : (F32.eq t F32.zero && F32.eq dt F32.zero) with
        | true => simp only [if_true]; refine (ESpec.pure _).congr fun _ _ _ => ?_; simp
        | false =>
          simp only [Bool.false_eq_true, if_false, true_and]
          refine (ESpec.bind' hl hle fun st => ESpec.pure _).congr fun _ _ _ => ?_
          simp
  · rintro ⟨fe, st'⟩ i _
    have hoor : ∀ t, outOfRange t = true ↔ ¬TimeOk t := by
      intro t
      rw [← outOfRange_iff]
      cases outOfRange t <;> simp
    have hzero : ∀ t dt, (F32.eq t F32.zero && F32.eq dt F32.zero) = false ↔
        ¬(IsZero t ∧ IsZero dt) := by
      intro t dt
      rw [← eq_zero_iff, ← eq_zero_iff, ← Bool.and_eq_true, Bool.not_eq_true]
    constructor
    · rintro (⟨h, hi⟩ | ⟨t, j, rfl, ⟨ht, h⟩ | ⟨ht, ⟨h, hj⟩ | ⟨dt, k, rfl, ⟨hd, h⟩ | ⟨hd, hz, es, us, h, hs⟩⟩⟩⟩)
      · cases h; exact ⟨[], [], .time hi, by simp⟩
      · cases h; exact ⟨[], [], .timeRange ((hoor t).1 ht), by simp⟩
      · cases h; exact ⟨[], [], .delta ((outOfRange_iff t).1 ht) hj, by simp⟩
      · cases h; exact ⟨[], [], .deltaRange ((outOfRange_iff t).1 ht) ((hoor dt).1 hd), by simp⟩
      · exact ⟨es, us, .records ((outOfRange_iff t).1 ht) ((outOfRange_iff dt).1 hd)
          ((hzero t dt).1 hz) h, hs⟩
    · rintro ⟨es, us, h, hs⟩
      simp only at h hs
      subst hs
      cases h with
      | time hi => exact .inl ⟨by simp, hi⟩
      | @timeRange t j ht => exact .inr ⟨t, j, rfl, .inl ⟨(hoor t).2 ht, by simp⟩⟩
      | @delta t j ht hj =>
        exact .inr ⟨t, j, rfl, .inr ⟨(outOfRange_iff t).2 ht, .inl ⟨by simp, hj⟩⟩⟩
      | @deltaRange t dt j ht hd =>
        exact .inr ⟨t, _, rfl, .inr ⟨(outOfRange_iff t).2 ht, .inr ⟨dt, j, rfl,
          .inl ⟨(hoor dt).2 hd, by simp⟩⟩⟩⟩
      | @records t dt es us _ j ht hd hz h =>
        exact .inr ⟨t, _, rfl, .inr ⟨(outOfRange_iff t).2 ht, .inr ⟨dt, j, rfl,
          .inr ⟨(outOfRange_iff dt).2 hd, (hzero t dt).2 hz, es, us, h, rfl⟩⟩⟩⟩

end FrameDecoder
end Boxcars
