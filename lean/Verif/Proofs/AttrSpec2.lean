import Verif.Proofs.AttrSpec
/-!
# The attribute decoders accept exactly the wire format, continued
-/
namespace Boxcars
open Spec

variable {ε : Type} {N : Nat}

/-! ### Loadouts -/

theorem bits_surj {n : Nat} {bs : List Bool} (h : bs.length = n) :
    ∃ x : BitVec n, bs = field n x := by
  subst h
  refine ⟨BitVec.ofNat _ (bitsToNat bs), ?_⟩
  unfold field
  rw [BitVec.toNat_ofNat, Nat.mod_eq_of_lt (bitsToNat_lt bs), bits_bitsToNat]

theorem specials_spec : BSpec N decodeLoadoutSpecials (ofB fun v bs =>
    bs = field 32 v.1 ++ (field 32 v.2.1 ++ field 32 v.2.2)) := by
  refine (BSpec.seq .u32 fun _ => BSpec.seq .u32 fun _ => BSpec.seq .u32 fun _ =>
    BSpec.ret _).gr ?_
  rintro ⟨a, b, c⟩ bs
  simp only [Prod.mk.injEq]
  fields

theorem junk_spec : BSpec N (do
    let _ ← readU32
    let _ ← readU32
    readU32) (ofB fun v bs => ∃ a b, bs = field 32 a ++ (field 32 b ++ field 32 v)) := by
  refine (BSpec.seq .u32 fun _ => BSpec.seq .u32 fun _ => .u32).gr ?_
  intro v bs
  fields

theorem junk_iff (P : Prop) [Decidable P] (bs : List Bool) :
    (∃ v : Option (BitVec 32), When P (fun v bs => ∃ a b : BitVec 32,
      bs = field 32 a ++ (field 32 b ++ field 32 v)) v bs) ↔
      bs.length = (if P then 96 else 0) := by
  unfold When
  by_cases h : P
  · rw [if_pos h]
    constructor
    · rintro ⟨v, (⟨_, x, _, a, b, rfl⟩ | ⟨h', _⟩)⟩
      · simp [field_length]
      · exact absurd h h'
    · intro hl
      obtain ⟨x, hx⟩ := bits_surj (n := 32) (bs := bs.take 32) (by simp; omega)
      obtain ⟨y, hy⟩ := bits_surj (n := 32) (bs := (bs.drop 32).take 32) (by simp; omega)
      obtain ⟨z, hz⟩ := bits_surj (n := 32) (bs := (bs.drop 32).drop 32) (by simp; omega)
      refine ⟨some z, .inl ⟨h, z, rfl, x, y, ?_⟩⟩
      rw [← hx, ← hy, ← hz, List.take_append_drop, List.take_append_drop]
  · rw [if_neg h]
    constructor
    · rintro ⟨v, (⟨h', _⟩ | ⟨_, _, rfl⟩)⟩
      · exact absurd h' h
      · rfl
    · intro hl
      exact ⟨none, .inr ⟨h, rfl, List.eq_nil_of_length_eq_zero hl⟩⟩

theorem specials_iff (P : Prop) (ea tr ge : Option (BitVec 32)) (bs : List Bool) :
    (∃ sp : Option (U32 × U32 × U32), When P (fun v bs =>
      bs = field 32 v.1 ++ (field 32 v.2.1 ++ field 32 v.2.2)) sp bs ∧
      ea = sp.map (fun s => s.1) ∧ tr = sp.map (fun s => s.2.1) ∧ ge = sp.map (fun s => s.2.2)) ↔
    ∃ a b c, When P Word ea a ∧ When P Word tr b ∧ When P Word ge c ∧ bs = a ++ (b ++ c) := by
  unfold When
  by_cases h : P
  · simp only [h, true_and, not_true_eq_false, false_and, or_false]
    constructor
    · rintro ⟨_, ⟨⟨x, y, z⟩, rfl, rfl⟩, rfl, rfl, rfl⟩
      exact ⟨_, _, _, ⟨x, rfl, rfl⟩, ⟨y, rfl, rfl⟩, ⟨z, rfl, rfl⟩, rfl⟩
    · rintro ⟨_, _, _, ⟨x, rfl, rfl⟩, ⟨y, rfl, rfl⟩, ⟨z, rfl, rfl⟩, rfl⟩
      exact ⟨some (x, y, z), ⟨_, rfl, rfl⟩, rfl, rfl, rfl⟩
  · simp only [h, not_false_eq_true, true_and, false_and, false_or]
    constructor
    · rintro ⟨_, ⟨rfl, rfl⟩, rfl, rfl, rfl⟩
      exact ⟨_, _, _, ⟨rfl, rfl⟩, ⟨rfl, rfl⟩, ⟨rfl, rfl⟩, rfl⟩
    · rintro ⟨_, _, _, ⟨rfl, rfl⟩, ⟨rfl, rfl⟩, ⟨rfl, rfl⟩, rfl⟩
      exact ⟨none, ⟨rfl, rfl⟩, rfl, rfl, rfl⟩

theorem loadout_spec : BSpec N decodeLoadout (ofB LoadoutEnc) := by
  refine (BSpec.seq .u8 fun ver => BSpec.seq .u32 fun _ => BSpec.seq .u32 fun _ =>
    BSpec.seq .u32 fun _ => BSpec.seq .u32 fun _ => BSpec.seq .u32 fun _ =>
    BSpec.seq .u32 fun _ => BSpec.seq .u32 fun _ =>
    BSpec.seq (when_spec decide_eq_true_iff word_spec) fun _ =>
    BSpec.seq (when_spec decide_eq_true_iff specials_spec) fun _ =>
    BSpec.seq (when_spec decide_eq_true_iff word_spec) fun _ =>
    BSpec.seq (when_spec decide_eq_true_iff word_spec) fun _ =>
    BSpec.seq (when_spec decide_eq_true_iff junk_spec) fun _ => BSpec.ret _).gr ?_
  rintro ⟨v, b1, b2, b3, b4, b5, b6, b7, u2, ea, tr, ge, ba, pr⟩ bs
  simp only [LoadoutEnc, Loadout.mk.injEq]
  fields
  constructor
  · rintro ⟨c1, h1, sp, c2, h2, c3, h3, c4, h4, c5, h5, e1, e2, e3, rfl⟩
    obtain ⟨x, y, z, hx, hy, hz, rfl⟩ := (specials_iff _ ea tr ge c2).1 ⟨sp, h2, e1, e2, e3⟩
    exact ⟨c1, h1, x, hx, y, hy, z, hz, c3, h3, c4, h4, c5, (junk_iff _ _).1 h5, by simp⟩
  · rintro ⟨c1, h1, x, hx, y, hy, z, hz, c3, h3, c4, h4, c5, h5, rfl⟩
    obtain ⟨sp, h2, e1, e2, e3⟩ := (specials_iff _ ea tr ge _).2 ⟨x, y, z, hx, hy, hz, rfl⟩
    exact ⟨c1, h1, sp, _, h2, c3, h3, c4, h4, c5, (junk_iff _ _).2 h5, e1, e2, e3, by simp⟩

theorem teamLoadout_spec : BSpec N AttrDecoder.teamLoadout (ofB TeamLoadoutEnc) := by
  refine (BSpec.seq loadout_spec fun _ => BSpec.seq loadout_spec fun _ => BSpec.ret _).gr ?_
  rintro ⟨a, b⟩ bs
  simp only [TeamLoadoutEnc, TeamLoadout.mk.injEq]
  fields

theorem gameMode_spec (d : AttrDecoder) : BSpec N d.gameMode
    (ofB fun a bs => ∃ w v, a = .gameMode w v ∧ GameModeEnc d.ctx w v bs) := by
  unfold AttrDecoder.gameMode
  by_cases hv : d.ctx.atLeast 868 12 0
  · have hg := (ge_iff d _ _ _).2 hv
    simp only [hg, Bool.not_true, Bool.false_eq_true, if_false]
    refine (BSpec.seq (.fld 8) fun _ => BSpec.ret _).gr ?_
    intro a bs
    constructor
    · rintro ⟨x, _, _, ⟨hx, rfl⟩, ⟨rfl, rfl⟩, rfl⟩
      refine ⟨_, _, rfl, .inl ⟨hv, rfl, ?_⟩⟩
      rw [BitVec.toNat_ofNat, Nat.mod_eq_of_lt hx, List.append_nil]
    · rintro ⟨w, v, rfl, (⟨_, rfl, rfl⟩ | ⟨h, _⟩)⟩
      · exact ⟨v.toNat, _, [], ⟨v.isLt, rfl⟩, ⟨by simp, rfl⟩, (List.append_nil _).symm⟩
      · exact absurd hv h
  · have hg : d.version.ge 868 12 0 = false := by
      cases h : d.version.ge 868 12 0 with
      | false => rfl
      | true => exact absurd ((ge_iff d _ _ _).1 h) hv
    simp only [hg, Bool.not_false, if_true]
    refine (BSpec.seq (.fld 2) fun _ => BSpec.ret _).gr ?_
    intro a bs
    constructor
    · rintro ⟨x, _, _, ⟨hx, rfl⟩, ⟨rfl, rfl⟩, rfl⟩
      refine ⟨_, _, rfl, .inr ⟨hv, rfl, ?_, ?_⟩⟩
      · rw [BitVec.toNat_ofNat, Nat.mod_eq_of_lt (by omega)]; omega
      · rw [BitVec.toNat_ofNat, Nat.mod_eq_of_lt (by omega), List.append_nil]
    · rintro ⟨w, v, rfl, (⟨h, _⟩ | ⟨_, rfl, h, rfl⟩)⟩
      · exact absurd h hv
      · exact ⟨v.toNat, _, [], ⟨h, rfl⟩, ⟨by simp, rfl⟩, (List.append_nil _).symm⟩

/-! ### Player ids -/

theorem remoteId_spec (net : I32) (sid : Byte) :
    BSpec N (decodeRemoteId net sid) (ofB (RemoteEnc net sid)) := by
  unfold decodeRemoteId
  by_cases h0 : sid = 0#8
  · subst h0
    rw [if_pos rfl]
    refine (BSpec.seq (need_spec _ (.fld 24)) fun _ => BSpec.ret _).gr ?_
    intro v bs
    constructor
    · rintro ⟨x, _, _, ⟨hx, rfl⟩, ⟨rfl, rfl⟩, rfl⟩
      refine .splitScreen ⟨?_, ?_⟩
      · rw [BitVec.toNat_ofNat, Nat.mod_eq_of_lt (by omega)]; exact hx
      · rw [BitVec.toNat_ofNat, Nat.mod_eq_of_lt (by omega), List.append_nil]
    · intro h
      cases h with
      | splitScreen h =>
        obtain ⟨hx, rfl⟩ := h
        exact ⟨_, _, [], ⟨hx, rfl⟩, ⟨by simp, rfl⟩, (List.append_nil _).symm⟩
  rw [if_neg h0]
  by_cases h1 : sid = 1#8
  · subst h1
    rw [if_pos rfl]
    refine (BSpec.seq (need_spec _ .u64) fun _ => BSpec.ret _).gr ?_
    intro v bs
    fields
    constructor
    · rintro ⟨x, rfl, rfl⟩; exact .steam x
    · intro h; cases h with | steam x => exact ⟨x, rfl, rfl⟩
  rw [if_neg h1]
  by_cases h2 : sid = 2#8
  · subst h2
    rw [if_pos rfl]
    refine (BSpec.seq (need_spec _ (readBytes_spec _)) fun _ =>
      BSpec.seq (need_spec _ (readBytes_spec _)) fun _ =>
      BSpec.seq (need_spec _ .u64) fun _ => BSpec.ret _).gr ?_
    intro v bs
    constructor
    · rintro ⟨raw, _, _, ⟨hr, rfl⟩, ⟨unk, _, _, ⟨hu, rfl⟩, ⟨x, _, _, rfl, ⟨rfl, rfl⟩, rfl⟩, rfl⟩, rfl⟩
      rw [List.append_nil]
      exact .playStation x hr ((isCp1252_iff _ _).2 rfl) hu
    · intro h
      cases h with
      | playStation x hr hs hu =>
        rename_i name raw unk
        exact ⟨raw, _, _, ⟨hr, rfl⟩, ⟨unk, _, _, ⟨hu, rfl⟩, ⟨x, _, [], rfl,
          ⟨by rw [(isCp1252_iff _ _).1 hs]; rfl, rfl⟩, (List.append_nil _).symm⟩, rfl⟩, rfl⟩
  rw [if_neg h2]
  by_cases h4 : sid = 4#8
  · subst h4
    rw [if_pos rfl]
    refine (BSpec.seq (need_spec _ .u64) fun _ => BSpec.ret _).gr ?_
    intro v bs
    fields
    constructor
    · rintro ⟨x, rfl, rfl⟩; exact .xbox x
    · intro h; cases h with | xbox x => exact ⟨x, rfl, rfl⟩
  rw [if_neg h4]
  by_cases h5 : sid = 5#8
  · subst h5
    rw [if_pos rfl]
    refine (BSpec.seq (need_spec _ .u64) fun _ => BSpec.ret _).gr ?_
    intro v bs
    fields
    constructor
    · rintro ⟨x, rfl, rfl⟩; exact .qq x
    · intro h; cases h with | qq x => exact ⟨x, rfl, rfl⟩
  rw [if_neg h5]
  by_cases h6 : sid = 6#8
  · subst h6
    rw [if_pos rfl]
    refine (BSpec.seq (need_spec _ .u64) fun _ => BSpec.seq (need_spec _ (readBytes_spec _)) fun _ =>
      BSpec.ret _).gr ?_
    intro v bs
    constructor
    · rintro ⟨x, _, _, rfl, ⟨unk, _, _, ⟨hu, rfl⟩, ⟨rfl, rfl⟩, rfl⟩, rfl⟩
      rw [List.append_nil]; exact .switch x hu
    · intro h
      cases h with
      | switch x hu =>
        exact ⟨x, _, _, rfl, ⟨_, _, [], ⟨hu, rfl⟩, ⟨rfl, rfl⟩, (List.append_nil _).symm⟩, rfl⟩
  rw [if_neg h6]
  by_cases h7 : sid = 7#8
  · subst h7
    rw [if_pos rfl]
    by_cases hn : net.toInt < 10
    · simp only [if_pos hn]
      refine (BSpec.seq (need_spec _ .u64) fun _ =>
        BSpec.seq (need_spec _ (readBytes_spec _)) fun _ => BSpec.ret _).gr ?_
      intro v bs
      constructor
      · rintro ⟨x, _, _, rfl, ⟨unk, _, _, ⟨hu, rfl⟩, ⟨rfl, rfl⟩, rfl⟩, rfl⟩
        rw [List.append_nil]; exact .psyNet x (by rw [if_pos hn]; exact hu)
      · intro h
        cases h with
        | psyNet x hu =>
          rw [if_pos hn] at hu
          exact ⟨x, _, _, rfl, ⟨_, _, [], ⟨hu, rfl⟩, ⟨rfl, rfl⟩, (List.append_nil _).symm⟩, rfl⟩
    · simp only [if_neg hn]
      refine (BSpec.seq (need_spec _ .u64) fun _ => BSpec.ret _).gr ?_
      intro v bs
      fields
      constructor
      · rintro ⟨x, rfl, rfl⟩
        have := RemoteEnc.psyNet (net := net) x (unk := []) (by rw [if_neg hn]; rfl)
        rwa [show bytes [] = [] from rfl, List.append_nil] at this
      · intro h
        cases h with
        | psyNet x hu =>
          rw [if_neg hn] at hu
          rw [List.eq_nil_of_length_eq_zero hu]
          exact ⟨x, rfl, List.append_nil _⟩
  rw [if_neg h7]
  by_cases h11 : sid = 11#8
  · subst h11
    rw [if_pos rfl]
    refine (BSpec.seq text_spec fun _ => BSpec.ret _).gr ?_
    intro v bs
    fields
    constructor
    · rintro ⟨x, h, rfl⟩; exact .epic h
    · intro h; cases h with | epic h => exact ⟨_, h, rfl⟩
  rw [if_neg h11]
  refine (BSpec.failG _).gr ?_
  intro v bs
  constructor
  · exact False.elim
  · intro h
    cases h <;> contradiction

theorem uniqueIdWith_spec (net : I32) (sid : Byte) :
    BSpec N (decodeUniqueIdWith net sid) (ofB fun v bs => v.systemId = sid ∧
      ∃ r, RemoteEnc net sid v.remoteId r ∧ bs = r ++ field 8 v.localId) := by
  refine (BSpec.seq (remoteId_spec net sid) fun _ => BSpec.seq (need_spec _ .u8) fun _ =>
    BSpec.ret _).gr ?_
  rintro ⟨a, b, c⟩ bs
  simp only [UniqueId.mk.injEq]
  fields
  constructor
  · rintro ⟨x, h, rfl, rfl⟩; exact ⟨rfl, x, h, rfl⟩
  · rintro ⟨rfl, x, h, rfl⟩; exact ⟨x, h, rfl, rfl⟩

theorem uniqueId_spec (net : I32) : BSpec N (decodeUniqueId net) (ofB (UniqueIdEnc net)) := by
  refine (BSpec.seq (need_spec _ .u8) fun sid => uniqueIdWith_spec net sid).gr ?_
  rintro ⟨a, b, c⟩ bs
  simp only [UniqueIdEnc]
  fields

theorem partyLeader_spec (d : AttrDecoder) :
    BSpec N d.partyLeader (ofB (PartyLeaderEnc d.ctx)) := by
  unfold AttrDecoder.partyLeader
  refine (BSpec.seq (need_spec _ .u8) fun sid => (?_ : BSpec N _ (ofB fun v bs =>
    (sid = 0#8 ∧ v = none ∧ bs = []) ∨ (sid ≠ 0#8 ∧ ∃ u : UniqueId, v = some u ∧ u.systemId = sid ∧
      ∃ r, RemoteEnc d.ctx.net sid u.remoteId r ∧ bs = r ++ field 8 u.localId)))).gr ?_
  · by_cases h : sid = 0#8
    · rw [if_neg (by simpa using h)]
      refine (BSpec.ret _).gr ?_
      intro v bs
      simp [h]
    · rw [if_pos h]
      refine (BSpec.seq (uniqueIdWith_spec _ sid) fun _ => BSpec.ret _).gr ?_
      intro v bs
      simp only [h, false_and, false_or, ne_eq, not_false_eq_true, true_and]
      constructor
      · rintro ⟨u, _, _, ⟨h1, r, h2, rfl⟩, ⟨rfl, rfl⟩, rfl⟩
        exact ⟨u, rfl, h1, r, h2, List.append_nil _⟩
      · rintro ⟨u, rfl, h1, r, h2, rfl⟩
        exact ⟨u, _, [], ⟨h1, r, h2, rfl⟩, ⟨rfl, rfl⟩, (List.append_nil _).symm⟩
  · intro v bs
    unfold PartyLeaderEnc UniqueIdEnc
    constructor
    · rintro ⟨sid, _, _, rfl, (⟨rfl, rfl, rfl⟩ | ⟨h, u, rfl, rfl, r, h2, rfl⟩), rfl⟩
      · exact .inl ⟨rfl, List.append_nil _⟩
      · exact .inr ⟨u, rfl, h, r, h2, rfl⟩
    · rintro (⟨rfl, rfl⟩ | ⟨u, rfl, h, r, h2, rfl⟩)
      · exact ⟨0#8, _, [], rfl, .inl ⟨rfl, rfl, rfl⟩, (List.append_nil _).symm⟩
      · exact ⟨_, _, _, rfl, .inr ⟨h, u, rfl, rfl, r, h2, rfl⟩, rfl⟩

theorem privateMatch_spec : BSpec N AttrDecoder.privateMatch (ofB PrivateMatchEnc) := by
  refine (BSpec.seq text_spec fun _ => BSpec.seq (need_spec _ .u32) fun _ =>
    BSpec.seq (need_spec _ .u32) fun _ => BSpec.seq text_spec fun _ => BSpec.seq text_spec fun _ =>
    BSpec.seq (need_spec _ .bit) fun _ => BSpec.ret _).gr ?_
  rintro ⟨a, b, c, e, f, g⟩ bs
  simp only [PrivateMatchEnc, PrivateMatchSettings.mk.injEq]
  fields

theorem repStatTitle_spec : BSpec N AttrDecoder.repStatTitle (ofB RepStatTitleEnc) := by
  refine (BSpec.seq (need_spec _ .bit) fun _ => BSpec.seq text_spec fun _ =>
    BSpec.seq (need_spec _ .bit) fun _ => BSpec.seq (need_spec _ .u32) fun _ =>
    BSpec.seq (need_spec _ .u32) fun _ => BSpec.ret _).gr ?_
  rintro ⟨a, b, c, e, f⟩ bs
  simp only [RepStatTitleEnc, RepStatTitle.mk.injEq]
  fields

/-! ### Products -/

theorem read31_spec : BSpec N read31 (ofB (Narrow 31)) := narrow_spec 31 (by decide)

theorem readMax14_spec : BSpec N readMax14 (ofB Below14) := by
  refine (BSpec.bind' (BSpec.readBounded (M := 14)) fun x => BSpec.pure _).congr ?_
  intro v i o _
  unfold Below14
  constructor
  · rintro ⟨x, _, ⟨hx, rfl⟩, rfl, rfl⟩
    have hx : x < 14 := hx
    refine ⟨bounded 14 x, ⟨?_, ?_⟩, rfl⟩
    · rw [BitVec.toNat_ofNat, Nat.mod_eq_of_lt (by omega)]; exact hx
    · rw [BitVec.toNat_ofNat, Nat.mod_eq_of_lt (by omega)]
  · rintro ⟨_, ⟨hx, rfl⟩, rfl⟩
    exact ⟨v.toNat, o, ⟨hx, rfl⟩, by simp, rfl⟩

theorem productValue_spec (d : AttrDecoder) (hp : d.product.version = d.version) (obj : ObjectId) :
    BSpec N (d.product.decode obj) (ofB (ProductEnc d.ctx obj)) := by
  unfold ProductDecoder.decode
  have hge : ∀ a b c, d.product.version.ge a b c = true ↔ d.ctx.atLeast a b c := by
    intro a b c; rw [hp]; exact ge_iff d a b c
  by_cases h1 : obj = d.product.colorInd
  · have h1' : obj = d.ctx.color := h1
    rw [if_pos h1]
    by_cases hv : d.ctx.atLeast 868 23 8
    · rw [if_pos ((hge _ _ _).2 hv)]
      refine (BSpec.seq .u32 fun _ => BSpec.ret _).gr ?_
      intro v bs
      fields
      constructor
      · rintro ⟨x, rfl, rfl⟩; exact .newColor x h1' hv
      · intro h
        cases h <;> first | contradiction | exact ⟨_, rfl, rfl⟩
    · rw [if_neg (fun h => hv ((hge _ _ _).1 h))]
      refine (BSpec.seq (ifGet_spec' read31_spec) fun x => (?_ : BSpec N _ (ofB fun v bs =>
        (v = match x with | some x => ProductValue.oldColor x | none => .noColor) ∧ bs = []))).gr ?_
      · cases x <;> exact BSpec.ret _
      · intro v bs
        constructor
        · rintro ⟨x, _, _, (⟨rfl, rfl⟩ | ⟨y, b, rfl, hy, rfl⟩), ⟨rfl, rfl⟩, rfl⟩
          · exact .noColor h1' hv
          · rw [List.append_nil]; exact .oldColor h1' hv hy
        · intro h
          cases h <;> try contradiction
          · exact ⟨none, _, [], .inl ⟨rfl, rfl⟩, ⟨rfl, rfl⟩, rfl⟩
          · rename_i hy
            exact ⟨some _, _, [], .inr ⟨_, _, rfl, hy, rfl⟩, ⟨rfl, rfl⟩, (List.append_nil _).symm⟩
  have h1' : obj ≠ d.ctx.color := h1
  rw [if_neg h1]
  by_cases h2 : obj = d.product.paintedInd
  · have h2' : obj = d.ctx.painted := h2
    rw [if_pos h2]
    by_cases hv : d.ctx.atLeast 868 18 0
    · rw [if_pos ((hge _ _ _).2 hv)]
      refine (BSpec.seq read31_spec fun _ => BSpec.ret _).gr ?_
      intro v bs
      fields
      constructor
      · rintro ⟨x, hx, rfl⟩; exact .newPaint h1' h2' hv hx
      · intro h
        cases h <;> first | contradiction | exact ⟨_, ‹_›, rfl⟩
    · rw [if_neg (fun h => hv ((hge _ _ _).1 h))]
      refine (BSpec.seq readMax14_spec fun _ => BSpec.ret _).gr ?_
      intro v bs
      fields
      constructor
      · rintro ⟨x, hx, rfl⟩; exact .oldPaint h1' h2' hv hx
      · intro h
        cases h <;> first | contradiction | exact ⟨_, ‹_›, rfl⟩
  have h2' : obj ≠ d.ctx.painted := h2
  rw [if_neg h2]
  by_cases h3 : obj = d.product.titleInd
  · have h3' : obj = d.ctx.titleId := h3
    rw [if_pos h3]
    refine (BSpec.seq text_spec.toOption fun _ => BSpec.ret _).gr ?_
    intro v bs
    fields
    constructor
    · rintro ⟨x, hx, rfl⟩; exact .title h1' h2' h3' hx
    · intro h
      cases h <;> first | contradiction | exact ⟨_, ‹_›, rfl⟩
  have h3' : obj ≠ d.ctx.titleId := h3
  rw [if_neg h3]
  by_cases h4 : obj = d.product.specialEditionInd
  · have h4' : obj = d.ctx.special := h4
    rw [if_pos h4]
    refine (BSpec.seq read31_spec fun _ => BSpec.ret _).gr ?_
    intro v bs
    fields
    constructor
    · rintro ⟨x, hx, rfl⟩; exact .special h1' h2' h3' h4' hx
    · intro h
      cases h <;> first | contradiction | exact ⟨_, ‹_›, rfl⟩
  have h4' : obj ≠ d.ctx.special := h4
  rw [if_neg h4]
  by_cases h5 : obj = d.product.teamEditionInd
  · have h5' : obj = d.ctx.team := h5
    rw [if_pos h5]
    by_cases hv : d.ctx.atLeast 868 18 0
    · rw [if_pos ((hge _ _ _).2 hv)]
      refine (BSpec.seq read31_spec fun _ => BSpec.ret _).gr ?_
      intro v bs
      fields
      constructor
      · rintro ⟨x, hx, rfl⟩; exact .newTeam h1' h2' h3' h4' h5' hv hx
      · intro h
        cases h <;> first | contradiction | exact ⟨_, ‹_›, rfl⟩
    · rw [if_neg (fun h => hv ((hge _ _ _).1 h))]
      refine (BSpec.seq readMax14_spec fun _ => BSpec.ret _).gr ?_
      intro v bs
      fields
      constructor
      · rintro ⟨x, hx, rfl⟩; exact .oldTeam h1' h2' h3' h4' h5' hv hx
      · intro h
        cases h <;> first | contradiction | exact ⟨_, ‹_›, rfl⟩
  have h5' : obj ≠ d.ctx.team := h5
  rw [if_neg h5]
  refine (BSpec.ret _).gr ?_
  intro v bs
  constructor
  · rintro ⟨rfl, rfl⟩; exact .absent h1' h2' h3' h4' h5'
  · intro h
    cases h <;> first | contradiction | exact ⟨rfl, rfl⟩

theorem product_spec (d : AttrDecoder) (hp : d.product.version = d.version) :
    BSpec N d.decodeProduct (ofB (ProductAttrEnc d.ctx)) := by
  refine (BSpec.seq .bit fun _ => BSpec.seq .u32 fun _ =>
    BSpec.seq (productValue_spec d hp _) fun _ => BSpec.ret _).gr ?_
  rintro ⟨a, b, c⟩ bs
  simp only [ProductAttrEnc, Product.mk.injEq]
  fields

theorem many_items {α : Type} {g : α → List Bool → Prop} (xs : List α) (i o : List Bool) :
    BSpec.Many (ofB g) xs i o ↔ ofB (Items g) xs i o := by
  constructor
  · intro h
    induction h with
    | nil => exact ⟨[], .nil, rfl⟩
    | cons h _ ih =>
      obtain ⟨b, hb, rfl⟩ := h
      obtain ⟨bs, hbs, rfl⟩ := ih
      exact ⟨_, .cons hb hbs, (List.append_assoc _ _ _).symm⟩
  · rintro ⟨bs, h, rfl⟩
    induction h with
    | nil => exact .nil
    | cons hb _ ih => exact .cons ⟨_, hb, List.append_assoc _ _ _⟩ ih

theorem items_spec {α : Type} {f : BM ε α} {g : α → List Bool → Prop} (n : Nat)
    (h : BSpec N f (ofB g)) :
    BSpec N (replicateBM n f) (ofB fun xs bs => xs.length = n ∧ Items g xs bs) := by
  refine (BSpec.replicate n h).congr ?_
  intro xs i o _
  rw [many_items]
  unfold ofB
  constructor
  · rintro ⟨h, bs, h1, h2⟩; exact ⟨bs, ⟨h, h1⟩, h2⟩
  · rintro ⟨bs, ⟨h, h1⟩, h2⟩; exact ⟨h, bs, h1, h2⟩

theorem byteList_spec {α : Type} {f : BM Unit α} {g : α → List Bool → Prop}
    (h : BSpec N f (ofB g)) :
    BSpec N (do let n ← readU8; replicateBM n.toNat f) (ofB (ByteList g)) := by
  refine (BSpec.seq .u8 fun n => items_spec n.toNat h).gr ?_
  intro xs bs
  unfold ByteList
  constructor
  · rintro ⟨n, _, b, rfl, ⟨hl, hi⟩, rfl⟩
    refine ⟨b, by rw [hl]; exact n.isLt, hi, ?_⟩
    rw [hl, BitVec.ofNat_toNat, BitVec.setWidth_eq]
  · rintro ⟨b, hl, hi, rfl⟩
    refine ⟨_, _, b, rfl, ⟨?_, hi⟩, rfl⟩
    rw [BitVec.toNat_ofNat, Nat.mod_eq_of_lt hl]

theorem onlineLoadout_spec (d : AttrDecoder) (hp : d.product.version = d.version) :
    BSpec N d.onlineLoadout (ofB (OnlineLoadoutEnc d.ctx)) :=
  byteList_spec (byteList_spec (product_spec d hp))

theorem loadoutsOnline_spec (d : AttrDecoder) (hp : d.product.version = d.version) :
    BSpec N d.loadoutsOnline (ofB (LoadoutsOnlineEnc d.ctx)) := by
  refine (BSpec.seq (onlineLoadout_spec d hp) fun _ => BSpec.seq (onlineLoadout_spec d hp) fun _ =>
    BSpec.seq .bit fun _ => BSpec.seq .bit fun _ => BSpec.ret _).gr ?_
  rintro ⟨a, b, c, e⟩ bs
  simp only [LoadoutsOnlineEnc, LoadoutsOnline.mk.injEq]
  fields

/-! ### Reservations -/

theorem utf8_length (s : Str) : (utf8 s).length = Str.byteLen s := by
  unfold utf8 Str.byteLen
  induction s with
  | nil => rfl
  | cons c s ih =>
    rw [List.flatMap_cons, List.length_append, ih, List.map_cons, List.sum_cons]
    congr 1
    simp [utf8Char]

theorem byteLen_append (s t : Str) : Str.byteLen (s ++ t) = Str.byteLen s + Str.byteLen t := by
  simp [Str.byteLen]

theorem byteLen_single (c : Char) : 1 ≤ Str.byteLen [c] := by
  have := Char.utf8Size_pos c
  simp only [Str.byteLen, List.map_cons, List.map_nil, List.sum_cons, List.sum_nil]
  omega

/-- What remains of a name of which `acc` has been read. -/
def NameTail (acc s : Str) (bs : List Bool) : Prop :=
  ∃ raw : List Byte, (∀ b ∈ raw, b ≠ 0) ∧ s = acc ++ raw.map (fun b => Char.ofNat b.toNat) ∧
    (raw ≠ [] → (utf8 s.dropLast).length < 255) ∧
    bs = bytes raw ++ (if (utf8 s).length < 255 then field 8 0#8 else [])

theorem utf8_dropLast_le {acc s t : Str} (h : s = acc ++ t) (ht : t ≠ []) :
    (utf8 acc).length ≤ (utf8 s.dropLast).length := by
  subst h
  rw [List.dropLast_append_of_ne_nil ht, utf8_length, utf8_length, byteLen_append]
  omega

theorem reservationName_spec (fuel : Nat) (acc : Str)
    (hf : 256 ≤ fuel + min (Str.byteLen acc) 255) :
    BSpec N (reservationName fuel acc) (ofB (NameTail acc)) := by
  induction fuel generalizing acc with
  | zero => omega
  | succ fuel ih =>
    rw [reservationName]
    by_cases h : Str.byteLen acc < 255
    · rw [if_pos h]
      refine (BSpec.seq (need_spec _ .u8) fun c => (?_ : BSpec N _ (ofB fun s bs =>
        (c = 0#8 ∧ s = acc ∧ bs = []) ∨ (c ≠ 0#8 ∧ NameTail (acc ++ [Char.ofNat c.toNat]) s bs)))).gr ?_
      · by_cases hc : c = 0#8
        · rw [if_pos hc]
          refine (BSpec.ret _).gr ?_
          intro s bs
          simp [hc]
        · rw [if_neg hc]
          refine (ih _ ?_).gr ?_
          · have := byteLen_single (Char.ofNat c.toNat)
            rw [byteLen_append]
            omega
          · intro s bs
            simp [hc]
      · intro s bs
        constructor
        · rintro ⟨c, _, _, rfl, (⟨rfl, rfl, rfl⟩ | ⟨hc, raw, h1, rfl, h2, rfl⟩), rfl⟩
          · refine ⟨[], by simp, by simp, by simp, ?_⟩
            rw [if_pos (by rw [utf8_length]; exact h), List.append_nil]
            rfl
          · refine ⟨c :: raw, ?_, by simp, ?_, ?_⟩
            · simp only [List.mem_cons]
              rintro b (rfl | hb)
              · exact hc
              · exact h1 b hb
            · intro _
              by_cases hr : raw = []
              · subst hr
                rw [List.map_nil, List.append_nil, List.dropLast_append_of_ne_nil (by simp)]
                simp only [List.dropLast_singleton, List.append_nil]
                rw [utf8_length]; exact h
              · exact h2 hr
            · rw [BSpec.bytes_cons]
              simp only [List.append_assoc]
        · rintro ⟨raw, h1, h2, h3, rfl⟩
          cases raw with
          | nil =>
            rw [List.map_nil, List.append_nil] at h2
            subst h2
            refine ⟨0#8, _, [], rfl, .inl ⟨rfl, rfl, rfl⟩, ?_⟩
            rw [if_pos (by rw [utf8_length]; exact h), List.append_nil]
            rfl
          | cons c raw =>
            refine ⟨c, _, _, rfl, .inr ⟨h1 c (by simp), raw, fun b hb => h1 b (by simp [hb]),
              by simpa using h2, fun _ => h3 (by simp), rfl⟩, ?_⟩
            rw [BSpec.bytes_cons, List.append_assoc]
    · rw [if_neg h]
      refine (BSpec.ret _).gr ?_
      intro s bs
      constructor
      · rintro ⟨rfl, rfl⟩
        refine ⟨[], by simp, by simp, by simp, ?_⟩
        rw [if_neg (by rw [utf8_length]; exact h)]
        rfl
      · rintro ⟨raw, h1, h2, h3, rfl⟩
        have hr : raw = [] := by
          by_contra hr
          have := utf8_dropLast_le h2 (by simpa using hr)
          have := h3 hr
          rw [utf8_length] at this
          rw [utf8_length, utf8_length] at *
          omega
        subst hr
        rw [List.map_nil, List.append_nil] at h2
        subst h2
        refine ⟨rfl, ?_⟩
        rw [if_neg (by rw [utf8_length]; exact h)]
        rfl

theorem latin1Name_spec : BSpec N (reservationName 256 []) (ofB Latin1Name) := by
  refine (reservationName_spec 256 [] (by decide)).gr ?_
  intro s bs
  unfold NameTail Latin1Name
  constructor
  · rintro ⟨raw, h1, rfl, h3, rfl⟩
    exact ⟨raw, h1, rfl, fun h => h3 (by rintro rfl; exact h rfl), rfl⟩
  · rintro ⟨raw, h1, rfl, h3, rfl⟩
    exact ⟨raw, h1, rfl, fun h => h3 (by simpa using h), rfl⟩

/-- The name rule of reservations. -/
def NameRule (u : UniqueId) (v : Option Str) (s : List Bool) : Prop :=
  (u.systemId ≠ 0 ∧ ∃ t, v = some t ∧ NetText t s) ∨
  (u.systemId = 0 ∧ u.remoteId ≠ .splitScreen 0 ∧ ∃ t, v = some t ∧ Latin1Name t s) ∨
  (u.systemId = 0 ∧ u.remoteId = .splitScreen 0 ∧ v = none ∧ s = [])

theorem nameRule_spec (u : UniqueId) :
    BSpec N (if u.systemId ≠ 0#8 then do
      let s ← decodeText
      pure (some s)
    else if u.remoteId ≠ .splitScreen 0#32 then do
      let s ← reservationName 256 []
      pure (some s)
    else pure none) (ofB (NameRule u)) := by
  unfold NameRule
  by_cases h : u.systemId = 0#8
  · rw [if_neg (by simpa using h)]
    by_cases hr : u.remoteId = .splitScreen 0#32
    · rw [if_neg (by simpa using hr)]
      refine (BSpec.ret _).gr ?_
      intro v bs
      simp [h, hr]
    · rw [if_pos hr]
      refine (BSpec.seq latin1Name_spec fun _ => BSpec.ret _).gr ?_
      intro v bs
      fields
      constructor
      · rintro ⟨t, h1, rfl⟩; exact .inr (.inl ⟨h, hr, t, rfl, h1⟩)
      · rintro (⟨h', _⟩ | ⟨_, _, t, rfl, h1⟩ | ⟨_, h', _⟩)
        · exact absurd h h'
        · exact ⟨t, h1, rfl⟩
        · exact absurd h' hr
  · rw [if_pos h]
    refine (BSpec.seq text_spec fun _ => BSpec.ret _).gr ?_
    intro v bs
    fields
    constructor
    · rintro ⟨t, h1, rfl⟩; exact .inl ⟨h, t, rfl, h1⟩
    · rintro (⟨_, t, rfl, h1⟩ | ⟨h', _⟩ | ⟨h', _⟩)
      · exact ⟨t, h1, rfl⟩
      · exact absurd h' h
      · exact absurd h' h

theorem unknown3_spec (d : AttrDecoder) :
    BSpec N (if d.version.ge 868 12 0 then do
        let x ← need "Reservation" (readBits 6)
        pure (some (BitVec.ofNat 8 x))
      else pure none) (ofB (When (d.ctx.atLeast 868 12 0) (Narrow 6 (w := 8)))) := by
  by_cases hv : d.ctx.atLeast 868 12 0
  · rw [if_pos ((ge_iff d _ _ _).2 hv)]
    refine (BSpec.seq (need_spec _ (.fld 6)) fun _ => BSpec.ret _).gr ?_
    intro v bs
    simp only [When, hv, true_and, not_true_eq_false, false_and, or_false, Narrow]
    constructor
    · rintro ⟨x, _, _, ⟨hx, rfl⟩, ⟨rfl, rfl⟩, rfl⟩
      refine ⟨_, rfl, ?_, ?_⟩
      · rw [BitVec.toNat_ofNat, Nat.mod_eq_of_lt (by omega)]; exact hx
      · rw [BitVec.toNat_ofNat, Nat.mod_eq_of_lt (by omega), List.append_nil]
    · rintro ⟨x, rfl, hx, rfl⟩
      exact ⟨x.toNat, _, [], ⟨hx, rfl⟩, ⟨by simp, rfl⟩, (List.append_nil _).symm⟩
  · rw [if_neg (fun h => hv ((ge_iff d _ _ _).1 h))]
    refine (BSpec.ret _).gr ?_
    intro v bs
    simp [When, hv]

theorem BM.assoc {ε α β γ : Type} (m : BM ε α) (f : α → BM ε β) (g : β → BM ε γ) :
    (m >>= f) >>= g = m >>= fun a => f a >>= g := BM.bind_assoc m f g

/-- `reservation` with the branches gathered before what follows them. -/
theorem reservation_eq (d : AttrDecoder) : d.reservation =
    need "Reservation" (readBits 3) >>= fun number =>
    decodeUniqueId d.version.netVersion >>= fun u =>
    (if u.systemId ≠ 0#8 then do
      let s ← decodeText
      pure (some s)
    else if u.remoteId ≠ .splitScreen 0#32 then do
      let s ← reservationName 256 []
      pure (some s)
    else pure none) >>= fun name =>
    need "Reservation" readBit >>= fun unknown1 =>
    need "Reservation" readBit >>= fun unknown2 =>
    (if d.version.ge 868 12 0 then do
        let x ← need "Reservation" (readBits 6)
        pure (some (BitVec.ofNat 8 x))
      else pure none) >>= fun unknown3 =>
    pure ⟨BitVec.ofNat 32 number, u, name, unknown1, unknown2, unknown3⟩ := by
  unfold AttrDecoder.reservation
  congr 1
  funext number
  congr 1
  funext u
  by_cases h1 : u.systemId ≠ 0#8
  · rw [if_pos h1, if_pos h1]
    cases h : d.version.ge 868 12 0 <;> simp [BM.assoc]
  · rw [if_neg h1, if_neg h1]
    by_cases h2 : u.remoteId ≠ .splitScreen 0#32
    · rw [if_pos h2, if_pos h2]
      cases h : d.version.ge 868 12 0 <;> simp [BM.assoc]
    · rw [if_neg h2, if_neg h2]
      cases h : d.version.ge 868 12 0 <;> simp [BM.assoc]

theorem reservation_spec (d : AttrDecoder) :
    BSpec N d.reservation (ofB (ReservationEnc d.ctx)) := by
  rw [reservation_eq]
  refine (BSpec.seq (need_spec _ (.fld 3)) fun _ => BSpec.seq (uniqueId_spec _) fun u =>
    BSpec.seq (nameRule_spec u) fun _ => BSpec.seq (need_spec _ .bit) fun _ =>
    BSpec.seq (need_spec _ .bit) fun _ => BSpec.seq (unknown3_spec d) fun _ => BSpec.ret _).gr ?_
  rintro ⟨a, b, c, e, f, g⟩ bs
  simp only [ReservationEnc, Reservation.mk.injEq]
  constructor
  · rintro ⟨n, _, _, ⟨hn, rfl⟩, ⟨u, bu, _, hu, ⟨s, bn, _, hs, ⟨x, _, _, rfl, ⟨y, _, _, rfl,
      ⟨z, bz, _, hz, ⟨⟨rfl, rfl, rfl, rfl, rfl, rfl⟩, rfl⟩, rfl⟩, rfl⟩, rfl⟩, rfl⟩, rfl⟩, rfl⟩
    refine ⟨bits 3 n, bu, bn, bz, ⟨?_, ?_⟩, hu, hs, hz, by simp⟩
    · rw [BitVec.toNat_ofNat, Nat.mod_eq_of_lt (by omega)]; exact hn
    · rw [BitVec.toNat_ofNat, Nat.mod_eq_of_lt (by omega)]
  · rintro ⟨_, bu, bn, bz, ⟨hn, rfl⟩, hu, hs, hz, rfl⟩
    exact ⟨a.toNat, _, _, ⟨hn, rfl⟩, ⟨b, bu, _, hu, ⟨c, bn, _, hs, ⟨e, _, _, rfl, ⟨f, _, _, rfl,
      ⟨g, bz, [], hz, ⟨⟨by simp, rfl, rfl, rfl, rfl, rfl⟩, rfl⟩, (List.append_nil _).symm⟩, rfl⟩, rfl⟩, rfl⟩, rfl⟩, rfl⟩

/-! ### Rigid bodies -/

theorem vecDen_err {net : I32} {i o : List Bool} :
    vecDen net i = (.error (), o) ↔ VecTrunc net i o := by
  unfold VecTrunc
  have hM : 1 ≤ sizeClasses net := by rcases sizeClasses_cases net with h | h <;> omega
  have hlog := sizeClasses_log2 net
  by_cases h5 : i.length < 5
  · rw [vecDen_short h5]
    constructor
    · intro h; cases h; exact .inl ⟨h5, rfl⟩
    · rintro (⟨_, rfl⟩ | ⟨h, _⟩)
      · rfl
      · omega
  · have hle := boundedDen_le (sizeClasses net) i
    obtain ⟨hb1, hb2⟩ := (bounded_append_iff (M := sizeClasses net) (i := i)).2
      ⟨by omega, rfl, rfl⟩
    by_cases hj : (i.drop (boundedDen (sizeClasses net) i).2).length <
        3 * ((boundedDen (sizeClasses net) i).1 + 2)
    · rw [vecDen_eof h5 rfl rfl hj]
      constructor
      · intro h
        cases h
        exact .inr ⟨by omega, _, by omega, hb2, hj⟩
      · rintro (⟨h, _⟩ | ⟨_, s, hs, hi, ho⟩)
        · omega
        · obtain ⟨_, h1, h2⟩ := (bounded_append_iff (M := sizeClasses net) (i := i)).1
            ⟨by omega, hi⟩
          rw [h2]
    · rw [vecDen_ok h5 rfl rfl hj]
      constructor
      · intro h; cases h
      · rintro (⟨h, _⟩ | ⟨_, s, hs, hi, ho⟩)
        · omega
        · obtain ⟨_, h1, h2⟩ := (bounded_append_iff (M := sizeClasses net) (i := i)).1
            ⟨by omega, hi⟩
          rw [h1, h2] at hj
          exact absurd ho hj

/-- A decoder given by a function on bit lists, failure turned into absence. -/
theorem BSpec.attemptFun {α β : Type} {m : BM Unit α} {f : α → β}
    (d : List Bool → Except Unit α × List Bool)
    (h : ∀ env r, r.Valid → r.bits.length ≤ N → ∃ look, look ≤ 63 ∧
      look ≤ (d r.bits).2.length ∧ (d r.bits).2 <:+ r.bits ∧
      m env r = den (d r.bits) look) :
    BSpec N (BM.attempt (do let x ← m; Pure.pure (f x)) : BM ε (Option β))
      (fun a i o => (∃ x, a = some (f x) ∧ d i = (.ok x, o)) ∨
        (a = none ∧ d i = (.error (), o))) := by
  refine (BSpec.ofFun (m := (BM.attempt (do let x ← m; Pure.pure (f x)) : BM ε (Option β)))
    (fun i => (match (d i).1 with
    | .ok x => .ok (some (f x)) | .error _ => .ok none, (d i).2)) ?_).congr ?_
  · intro env r hv hl
    obtain ⟨look, h1, h2, h3, h4⟩ := h env r hv hl
    refine ⟨look, h1, h2, h3, ?_⟩
    unfold BM.attempt
    have : (do let x ← m; Pure.pure (f x) : BM Unit β) env r =
        den (((d r.bits).1.map f), (d r.bits).2) look := by
      show BM.bind m _ env r = _
      unfold BM.bind
      rw [h4]
      unfold den
      cases (d r.bits).1 <;> rfl
    rw [this]
    unfold den
    simp only
    cases (d r.bits).1 <;> rfl
  · intro a i o _
    rcases hd : d i with ⟨x, y⟩
    cases x with
    | ok x =>
      simp only [Prod.mk.injEq, Except.ok.injEq, reduceCtorEq, false_and, and_false, or_false]
      constructor
      · rintro ⟨rfl, rfl⟩; exact ⟨x, rfl, rfl, rfl⟩
      · rintro ⟨_, rfl, rfl, rfl⟩; exact ⟨rfl, rfl⟩
    | error e =>
      simp only [Prod.mk.injEq, Except.ok.injEq, reduceCtorEq, false_and, and_false, exists_false,
        false_or]
      constructor
      · rintro ⟨rfl, rfl⟩; exact ⟨rfl, trivial, rfl⟩
      · rintro ⟨rfl, _, rfl⟩; exact ⟨rfl, rfl⟩

theorem velocity_spec (net : I32) :
    BSpec N (BM.attempt (Vector3f.decode net) : BM ε (Option Vector3f)) (Velocity net) := by
  refine (BSpec.attemptFun (vecDen net) fun env r hv _ => decode_run net env r hv).congr ?_
  intro a i o _
  unfold Velocity
  cases a with
  | none =>
    simp only [reduceCtorEq, false_and, exists_false, true_and, false_or]
    exact vecDen_err
  | some w =>
    simp only [Option.some.injEq, reduceCtorEq, false_and, or_false]
    constructor
    · rintro ⟨x, rfl, h⟩
      obtain ⟨b, hb, rfl⟩ := vecDen_iff.1 h
      exact ⟨b, ⟨x, hb, toF_eq hb⟩, rfl⟩
    · rintro ⟨b, ⟨x, hx, rfl⟩, rfl⟩
      exact ⟨x, (toF_eq hx).symm, vecDen_iff.2 ⟨b, hx, rfl⟩⟩

theorem bodyRotation_spec (d : AttrDecoder) :
    BSpec N (if d.version.netVersion.toInt ≥ 7 then Quaternion.decode
      else Quaternion.decodeCompressed) (ofB fun q r =>
        (7 ≤ d.ctx.net.toInt ∧ QuatEnc q r) ∨ (d.ctx.net.toInt < 7 ∧ OldQuatEnc q r)) := by
  by_cases h : d.version.netVersion.toInt ≥ 7
  · have h' : 7 ≤ d.ctx.net.toInt := h
    rw [if_pos h]
    refine BSpec.quat.gr ?_
    intro q r
    constructor
    · exact fun hq => .inl ⟨h', hq⟩
    · rintro (⟨_, hq⟩ | ⟨h'', _⟩)
      · exact hq
      · omega
  · have h' : d.ctx.net.toInt < 7 := by
      have : d.ctx.net = d.version.netVersion := rfl
      rw [this]; omega
    rw [if_neg h]
    refine BSpec.oldQuat.gr ?_
    intro q r
    constructor
    · exact fun hq => .inr ⟨h', hq⟩
    · rintro (⟨h'', _⟩ | ⟨_, hq⟩)
      · omega
      · exact hq

theorem rigidBody_spec (d : AttrDecoder) :
    BSpec N d.rigidBody (fun v i o => (∃ bs, RigidBodyEnc d.ctx v bs ∧ i = bs ++ o) ∨
      RigidBodyTrunc d.ctx v i o) := by
  have heq : d.rigidBody = readBit >>= fun sleeping =>
      Vector3f.decode d.version.netVersion >>= fun location =>
      (if d.version.netVersion.toInt ≥ 7 then Quaternion.decode
        else Quaternion.decodeCompressed) >>= fun rotation =>
      if (!sleeping) = true then do
        let linearVelocity ← BM.attempt (Vector3f.decode d.version.netVersion)
        let angularVelocity ← BM.attempt (Vector3f.decode d.version.netVersion)
        pure ⟨sleeping, location, rotation, linearVelocity, angularVelocity⟩
      else
        pure ⟨sleeping, location, rotation, none, none⟩ := by
    unfold AttrDecoder.rigidBody
    by_cases hn : d.version.netVersion.toInt ≥ 7
    · simp only [if_pos hn]
    · simp only [if_neg hn]
  rw [heq]
  have h :=
    BSpec.bind' (N := N) .bit fun sleeping => BSpec.bind' (v3_spec d) fun location =>
      BSpec.bind' (bodyRotation_spec d) fun rotation =>
        BSpec.ite (c := (!sleeping) = true)
          (fun _ => BSpec.bind' (velocity_spec d.ctx.net) fun linear =>
            BSpec.bind' (velocity_spec d.ctx.net) fun angular =>
              BSpec.pure (⟨sleeping, location, rotation, linear, angular⟩ : RigidBody))
          (fun _ => BSpec.pure (⟨sleeping, location, rotation, none, none⟩ : RigidBody))
  refine h.congr ?_
  rintro ⟨sl, lo, ro, li, an⟩ i o _
  unfold RigidBodyEnc RigidBodyTrunc When
  constructor
  · rintro ⟨b, _, ⟨_, rfl, rfl⟩, l, _, ⟨bl, hl, rfl⟩, q, _, ⟨bq, hq, rfl⟩, h⟩
    cases b with
    | true =>
      rw [if_neg (by decide)] at h
      obtain ⟨h, rfl⟩ := h
      cases h
      left
      exact ⟨_, ⟨bl, bq, [], [], hl, hq, .inr ⟨by simp, rfl, rfl⟩, .inr ⟨by simp, rfl, rfl⟩, rfl⟩,
        by simp⟩
    | false =>
      rw [if_pos (by decide)] at h
      obtain ⟨x, j, hx, y, k, hy, hh, rfl⟩ := h
      obtain ⟨rfl, rfl, rfl, rfl, rfl⟩ := RigidBody.mk.inj hh
      clear hh
      cases li with
      | none => exact .inr ⟨rfl, .inl rfl, bl, bq, _, _, hl, hq, rfl, hx, hy⟩
      | some x =>
        cases an with
        | none => exact .inr ⟨rfl, .inr rfl, bl, bq, _, _, hl, hq, rfl, hx, hy⟩
        | some y =>
          obtain ⟨bx, hx, rfl⟩ := hx
          obtain ⟨by', hy, rfl⟩ := hy
          left
          exact ⟨_, ⟨bl, bq, bx, by', hl, hq, .inl ⟨rfl, x, rfl, hx⟩, .inl ⟨rfl, y, rfl, hy⟩, rfl⟩,
            by simp⟩
  · rintro (⟨_, ⟨bl, bq, bx, by', hl, hq, hx, hy, rfl⟩, rfl⟩ |
      ⟨hs, _, bl, bq, j, k, hl, hq, rfl, hx, hy⟩)
    · refine ⟨sl, _, ⟨_, rfl, List.append_assoc _ _ _⟩, lo, _, ⟨bl, hl, List.append_assoc _ _ _⟩,
        ro, _, ⟨bq, hq, List.append_assoc _ _ _⟩, ?_⟩
      cases sl with
      | true =>
        rw [if_neg (by decide)]
        rcases hx with ⟨hx, _⟩ | ⟨_, hx, rfl⟩
        · cases hx
        rcases hy with ⟨hy, _⟩ | ⟨_, hy, rfl⟩
        · cases hy
        simp only at hx hy
        subst hx hy
        exact ⟨rfl, rfl⟩
      | false =>
        rw [if_pos (by decide)]
        rcases hx with ⟨_, x, hx, hx'⟩ | ⟨hx, _⟩
        swap
        · exact absurd rfl hx
        rcases hy with ⟨_, y, hy, hy'⟩ | ⟨hy, _⟩
        swap
        · exact absurd rfl hy
        simp only at hx hy
        subst hx hy
        exact ⟨some x, _, ⟨bx, hx', List.append_assoc _ _ _⟩, some y, _, ⟨by', hy', rfl⟩, rfl, rfl⟩
    · refine ⟨sl, _, ⟨_, rfl, rfl⟩, lo, _, ⟨bl, hl, rfl⟩, ro, _, ⟨bq, hq, rfl⟩, ?_⟩
      simp only at hs
      subst hs
      rw [if_pos (by decide)]
      exact ⟨li, _, hx, an, _, hy, rfl, rfl⟩

/-! ### Every attribute -/

theorem named_spec {α : Type} {m : BM Unit α} {g : α → List Bool → Prop} {d : Ctx}
    {tag : AttributeTag} {f : α → Attribute} (what : String) (h : BSpec N m (ofB g))
    (h1 : ∀ x bs, g x bs → AttrEnc d tag (f x) bs)
    (h2 : ∀ a bs, AttrEnc d tag a bs → ∃ x, a = f x ∧ g x bs) :
    BSpec N (AttrDecoder.named what f m) (ofB (AttrEnc d tag)) := by
  refine (BSpec.seq (need_spec what h) fun _ => BSpec.ret _).gr ?_
  intro a bs
  constructor
  · rintro ⟨x, _, _, hx, ⟨rfl, rfl⟩, rfl⟩
    rw [List.append_nil]; exact h1 x _ hx
  · intro ha
    obtain ⟨x, rfl, hx⟩ := h2 a bs ha
    exact ⟨x, bs, [], hx, ⟨rfl, rfl⟩, (List.append_nil _).symm⟩

theorem mapAttr_spec {α : Type} {m : BM AttributeError α} {g : α → List Bool → Prop} {d : Ctx}
    {tag : AttributeTag} {f : α → Attribute} (h : BSpec N m (ofB g))
    (h1 : ∀ x bs, g x bs → AttrEnc d tag (f x) bs)
    (h2 : ∀ a bs, AttrEnc d tag a bs → ∃ x, a = f x ∧ g x bs) :
    BSpec N (AttrDecoder.mapAttr f m) (ofB (AttrEnc d tag)) := by
  refine (BSpec.seq h fun _ => BSpec.ret _).gr ?_
  intro a bs
  constructor
  · rintro ⟨x, _, _, hx, ⟨rfl, rfl⟩, rfl⟩
    rw [List.append_nil]; exact h1 x _ hx
  · intro ha
    obtain ⟨x, rfl, hx⟩ := h2 a bs ha
    exact ⟨x, bs, [], hx, ⟨rfl, rfl⟩, (List.append_nil _).symm⟩

/-- Relate a field grammar to the constructor of `AttrEnc` for it. -/
macro "enc" : tactic => `(tactic| first
  | (intro x bs h; constructor; exact h)
  | (intro x bs h; have h : bs = _ := h; subst h; constructor))

/-- The converse. -/
macro "dec" : tactic => `(tactic|
  (intro a bs h; cases h; first | exact ⟨_, rfl, rfl⟩ | exact ⟨_, rfl, ‹_›⟩))

theorem decode_enc (d : AttrDecoder) (hp : d.product.version = d.version) (tag : AttributeTag)
    (ht : tag ≠ .rigidBody) : BSpec N (d.decode tag) (ofB (AttrEnc d.ctx tag)) := by
  cases tag with
  | rigidBody => exact absurd rfl ht
  | byte => exact named_spec _ .u8 (by enc) (by dec)
  | boolean => exact named_spec _ .bit (by enc) (by dec)
  | activeActor => exact named_spec _ activeActor_spec (by enc) (by dec)
  | appliedDamage => exact named_spec _ (appliedDamage_spec d) (by enc) (by dec)
  | damageState => exact named_spec _ (damageState_spec d) (by enc) (by dec)
  | camSettings => exact named_spec _ (camSettings_spec d) (by enc) (by dec)
  | clubColors => exact named_spec _ clubColors_spec (by enc) (by dec)
  | demolish => exact named_spec _ (demolish_spec d) (by enc) (by dec)
  | demolishExtended => exact named_spec _ (demolishExtended_spec d) (by enc) (by dec)
  | demolishFx => exact named_spec _ (demolishFx_spec d) (by enc) (by dec)
  | enum => exact named_spec _ (narrow_spec 11 (by decide)) (by enc) (by dec)
  | explosion => exact named_spec _ (explosion_spec d) (by enc) (by dec)
  | extendedExplosion => exact named_spec _ (extendedExplosion_spec d) (by enc) (by dec)
  | flaggedByte =>
    refine (need_spec _ (BSpec.seq .bit fun _ => BSpec.seq .u8 fun _ => BSpec.ret _)).gr ?_
    intro a bs
    fields
    constructor
    · rintro ⟨b, v, rfl, rfl⟩; exact .flaggedByte b v
    · intro h; cases h; exact ⟨_, _, rfl, rfl⟩
  | float => exact named_spec _ .u32 (by enc) (by dec)
  | gameMode =>
    refine (need_spec _ (gameMode_spec d)).gr ?_
    intro a bs
    constructor
    · rintro ⟨w, v, rfl, h⟩; exact .gameMode h
    · intro h; cases h; exact ⟨_, _, rfl, ‹_›⟩
  | int => exact named_spec _ .u32 (by enc) (by dec)
  | int64 => exact named_spec _ .u64 (by enc) (by dec)
  | loadout => exact named_spec _ loadout_spec (by enc) (by dec)
  | teamLoadout => exact named_spec _ teamLoadout_spec (by enc) (by dec)
  | location => exact named_spec _ (v3_spec d) (by enc) (by dec)
  | musicStinger => exact named_spec _ musicStinger_spec (by enc) (by dec)
  | pickup => exact named_spec _ pickup_spec (by enc) (by dec)
  | pickupNew => exact named_spec _ pickupNew_spec (by enc) (by dec)
  | playerHistoryKey => exact named_spec _ (narrow_spec 14 (by decide)) (by enc) (by dec)
  | qWordString =>
    have he : d.decode .qWordString = if d.isRl223 = true
        then AttrDecoder.mapAttr .string decodeText
        else AttrDecoder.named "QWord" .qWord readU64 := rfl
    rw [he]
    cases hr : d.isRl223 with
    | true =>
      have hr' : d.ctx.rl223 = true := hr
      rw [if_pos rfl]
      refine mapAttr_spec text_spec (fun x bs h => .qWordString hr' h) ?_
      intro a bs h
      cases h with
      | qWord v h => rw [hr'] at h; cases h
      | qWordString h h' => exact ⟨_, rfl, h'⟩
    | false =>
      have hr' : d.ctx.rl223 = false := hr
      rw [if_neg (by decide)]
      refine named_spec _ .u64 (fun x bs h => by rw [h]; exact .qWord x hr') ?_
      intro a bs h
      cases h with
      | qWord v h => exact ⟨_, rfl, rfl⟩
      | qWordString h h' => rw [hr'] at h; cases h
  | welded => exact named_spec _ (welded_spec d) (by enc) (by dec)
  | title =>
    refine (need_spec _ (BSpec.seq .bit fun _ => BSpec.seq .bit fun _ => BSpec.seq .u32 fun _ =>
      BSpec.seq .u32 fun _ => BSpec.seq .u32 fun _ => BSpec.seq .u32 fun _ =>
      BSpec.seq .u32 fun _ => BSpec.seq .bit fun _ => BSpec.ret _)).gr ?_
    intro a bs
    fields
    constructor
    · rintro ⟨a, b, c, e, f, g, h, i, rfl, rfl⟩
      exact .title a b c e f g h i
    · intro h; cases h; exact ⟨_, _, _, _, _, _, _, _, rfl, by simp⟩
  | teamPaint => exact named_spec _ teamPaint_spec (by enc) (by dec)
  | notImplemented =>
    refine (BSpec.failG AttributeError.unimplemented).gr ?_
    intro a bs
    constructor
    · exact False.elim
    · intro h; cases h
  | string => exact mapAttr_spec text_spec (by enc) (by dec)
  | uniqueId => exact mapAttr_spec (uniqueId_spec _) (fun _ _ h => .uniqueId h) (by dec)
  | reservation => exact mapAttr_spec (reservation_spec d) (by enc) (by dec)
  | partyLeader => exact mapAttr_spec (partyLeader_spec d) (by enc) (by dec)
  | privateMatchSettings => exact mapAttr_spec privateMatch_spec (by enc) (by dec)
  | loadoutOnline => exact named_spec _ (onlineLoadout_spec d hp) (by enc) (by dec)
  | loadoutsOnline => exact named_spec _ (loadoutsOnline_spec d hp) (by enc) (by dec)
  | statEvent => exact named_spec _ statEvent_spec (by enc) (by dec)
  | rotationTag => exact named_spec _ .rot (by enc) (by dec)
  | repStatTitle => exact mapAttr_spec repStatTitle_spec (by enc) (by dec)
  | pickupInfo => exact named_spec _ pickupInfo_spec (by enc) (by dec)
  | impulse => exact named_spec _ impulse_spec (by enc) (by dec)
  | replicatedBoost => exact named_spec _ replicatedBoost_spec (by enc) (by dec)
  | logoData => exact named_spec _ logoData_spec (by enc) (by dec)

/-- The decoder of every attribute type accepts exactly what `AttrAccepts` describes. -/
theorem decode_spec (d : AttrDecoder) (hp : d.product.version = d.version) (tag : AttributeTag) :
    BSpec N (d.decode tag) (AttrAccepts d.ctx tag) := by
  by_cases ht : tag = .rigidBody
  · subst ht
    refine (BSpec.bind' (need_spec "Rigid Body" (rigidBody_spec d)) fun _ => BSpec.pure _).congr ?_
    intro a i o _
    unfold AttrAccepts
    constructor
    · rintro ⟨v, _, (⟨bs, h, rfl⟩ | h), rfl, rfl⟩
      · exact .inl ⟨bs, .rigidBody h, rfl⟩
      · exact .inr ⟨rfl, v, rfl, h⟩
    · rintro (⟨bs, h, rfl⟩ | ⟨_, v, rfl, h⟩)
      · cases h with
        | rigidBody h => exact ⟨_, o, .inl ⟨bs, h, rfl⟩, rfl, rfl⟩
      · exact ⟨v, o, .inr h, rfl, rfl⟩
  · refine (decode_enc d hp tag ht).congr ?_
    intro a i o _
    unfold AttrAccepts ofB
    simp [ht]

end Boxcars
