import Verif.Proofs.Enough
/-!
# The attribute decoders report exactly the errors of `Spec.AttrFails`
-/
namespace Boxcars
open Spec

variable {N : Nat}

/-! ### Missing fields -/

theorem no_bits {n : Nat} {i : List Bool} :
    (∀ x o, ¬ofB (fun x bs => x < 2 ^ n ∧ bs = bits n x) x i o) ↔ i.length < n := by
  constructor
  · intro h
    refine Nat.lt_of_not_le fun hc => ?_
    obtain ⟨x, hx, e⟩ := Enough.split hc
    exact h x _ ⟨_, ⟨hx, rfl⟩, e⟩
  · rintro h x o ⟨_, ⟨_, rfl⟩, rfl⟩
    rw [List.length_append, bits_length] at h
    omega

theorem no_field {w : Nat} {i : List Bool} :
    (∀ (x : BitVec w) o, ¬ofB (fun x bs => bs = field w x) x i o) ↔ i.length < w := by
  constructor
  · intro h
    refine Nat.lt_of_not_le fun hc => ?_
    obtain ⟨x, hx, e⟩ := Enough.split hc
    refine h (BitVec.ofNat w x) (i.drop w) ⟨_, rfl, ?_⟩
    rw [field, BitVec.toNat_ofNat, Nat.mod_eq_of_lt hx]
    exact e
  · rintro h x o ⟨_, rfl, rfl⟩
    rw [List.length_append, field_length] at h
    omega

theorem no_bit {i : List Bool} :
    (∀ (x : Bool) o, ¬ofB (fun x bs => bs = [x]) x i o) ↔ i = [] := by
  constructor
  · intro h
    cases i with
    | nil => rfl
    | cons x i => exact (h x i ⟨_, rfl, rfl⟩).elim
  · rintro rfl x o ⟨_, rfl, h⟩
    cases h

theorem no_bytes {n : Nat} {i : List Bool} :
    (∀ (x : List Byte) o, ¬ofB (fun b bs => b.length = n ∧ bs = bytes b) x i o) ↔
      i.length < 8 * n := by
  constructor
  · intro h
    refine Nat.lt_of_not_le fun hc => ?_
    obtain ⟨h1, h2⟩ := (BSpec.bytes_append_iff (n := n) (i := i)).2 ⟨hc, rfl, rfl⟩
    exact h _ _ ⟨_, ⟨h1, rfl⟩, h2⟩
  · rintro h x o ⟨_, ⟨h1, rfl⟩, rfl⟩
    rw [List.length_append, BSpec.bytes_length] at h
    omega

theorem needE {α : Type} {m : BM Unit α} {R : BRel α} (what : String) (h : BSpec N m R) :
    ESpec N (need what m) (fun e i => e = .notEnoughDataFor what ∧ ∀ a o, ¬R a i o) :=
  ESpec.okOr _ h

theorem needE' {α : Type} {m : BM Unit α} {R : BRel α} {P : List Bool → Prop} (what : String)
    (h : BSpec N m R) (hP : ∀ i, (∀ a o, ¬R a i o) ↔ P i) :
    ESpec N (need what m) (fun e i => e = .notEnoughDataFor what ∧ P i) :=
  (needE what h).congr fun e i _ => by rw [hP]

/-- A step that cannot fail at the end. -/
theorem ESpec.last {ε α β : Type} {m : BM ε α} {R : BRel α} {E} (f : α → β) (hs : BSpec N m R)
    (h : ESpec N m E) : ESpec N (m >>= fun a => Pure.pure (f a)) E := by
  refine (ESpec.bind' hs h fun a => ESpec.pure (f a)).congr ?_
  intro e i _
  constructor
  · rintro (h | ⟨_, _, _, h⟩)
    · exact h
    · exact h.elim
  · exact .inl

theorem ESpec.congr' {ε α : Type} {m : BM ε α} {E E'} (h : ESpec N m E)
    (hE : ∀ e i, E e i ↔ E' e i) : ESpec N m E' := h.congr fun e i _ => hE e i

/-- A field of fixed width in front of fields of fixed width, with the same error. -/
theorem ESpec.fixed {α β : Type} {m : BM AttributeError α} {f : α → BM AttributeError β}
    {R : BRel α} {x : AttributeError} {n k : Nat} (hs : BSpec N m R)
    (h : ESpec N m (fun e i => e = x ∧ i.length < n))
    (hlen : ∀ a i j, R a i j → i.length = n + j.length)
    (hno : ∀ i, (∀ a o, ¬R a i o) ↔ i.length < n)
    (hf : ∀ a, ESpec N (f a) (fun e i => e = x ∧ i.length < k)) :
    ESpec N (m >>= f) (fun e i => e = x ∧ i.length < n + k) := by
  refine (ESpec.bind' hs h hf).congr' ?_
  intro e i
  constructor
  · rintro (⟨rfl, h⟩ | ⟨a, j, h1, rfl, h2⟩)
    · exact ⟨rfl, by omega⟩
    · exact ⟨rfl, by rw [hlen a i j h1]; omega⟩
  · rintro ⟨rfl, h⟩
    by_cases hn : i.length < n
    · exact .inl ⟨rfl, hn⟩
    · have : ∃ a o, R a i o := Classical.byContradiction fun hc => hn ((hno i).1 fun a o h =>
        hc ⟨a, o, h⟩)
      obtain ⟨a, o, ha⟩ := this
      have := hlen a i o ha
      exact .inr ⟨a, o, ha, rfl, by omega⟩

theorem no_bit' {i : List Bool} :
    (∀ (x : Bool) o, ¬ofB (fun x bs => bs = [x]) x i o) ↔ i.length < 1 := by
  rw [no_bit]
  cases i <;> simp

theorem ESpec.bitFixed {β : Type} {what : String} {f : Bool → BM AttributeError β} {k : Nat}
    (hf : ∀ a, ESpec N (f a) (fun e i => e = .notEnoughDataFor what ∧ i.length < k)) :
    ESpec N (need what readBit >>= f)
      (fun e i => e = .notEnoughDataFor what ∧ i.length < 1 + k) :=
  ESpec.fixed (need_spec _ .bit) (needE' _ .bit fun _ => no_bit')
    (by rintro a i j ⟨_, rfl, rfl⟩; simp only [List.length_append, List.length_cons, List.length_nil])
    (fun _ => no_bit') hf

theorem ESpec.fieldFixed {β : Type} {what : String} {w : Nat} {m : BM Unit (BitVec w)}
    {f : BitVec w → BM AttributeError β} {k : Nat} (h : BSpec N m (ofB fun x bs => bs = field w x))
    (hf : ∀ a, ESpec N (f a) (fun e i => e = .notEnoughDataFor what ∧ i.length < k)) :
    ESpec N (need what m >>= f)
      (fun e i => e = .notEnoughDataFor what ∧ i.length < w + k) :=
  ESpec.fixed (need_spec _ h) (needE' _ h fun _ => no_field)
    (by rintro a i j ⟨_, rfl, rfl⟩; rw [List.length_append, field_length])
    (fun _ => no_field) hf

theorem ESpec.none {β : Type} {x : AttributeError} (b : β) :
    ESpec N (Pure.pure b : BM AttributeError β) (fun e i => e = x ∧ i.length < 0) :=
  (ESpec.pure b).congr' fun _ _ => ⟨False.elim, fun h => absurd h.2 (Nat.not_lt_zero _)⟩

/-! ### Texts -/

/-- What fails after the count of a text. -/
def TextBodyFail (c : I32) (e : AttributeError) (i : List Bool) : Prop :=
  e = .tooBigString c ∧ (1024 < c.toInt ∨ c.toInt < -512 ∨
    (0 < c.toInt ∧ c.toInt ≤ 1024 ∧ (i.length : Int) < 8 * c.toInt) ∨
    (-512 ≤ c.toInt ∧ c.toInt < 0 ∧ (i.length : Int) < -16 * c.toInt))

theorem textBodyE (c : I32) :
    ESpec N (if c.toInt = 0 then pure []
      else if c.toInt < 0 then
        if c.toInt * -2 > 2147483647 then BM.fail (.tooBigString c)
        else if (c.toInt * -2).toNat > bufLen then BM.fail (.tooBigString c)
        else do
          let b ← BM.okOr (.tooBigString c) (readBytes (c.toInt * -2).toNat)
          pure (decodeUtf16 b)
      else if c.toInt.toNat > bufLen then BM.fail (.tooBigString c)
      else do
        let b ← BM.okOr (.tooBigString c) (readBytes c.toInt.toNat)
        pure (decodeWindows1252 b) : BM AttributeError Str)
      (TextBodyFail c) := by
  unfold TextBodyFail
  by_cases h0 : c.toInt = 0
  · rw [if_pos h0]
    refine (ESpec.pure _).congr' ?_
    intro e i
    constructor
    · exact False.elim
    · rintro ⟨_, h⟩; omega
  · rw [if_neg h0]
    by_cases hn : c.toInt < 0
    · rw [if_pos hn]
      by_cases h1 : c.toInt * -2 > 2147483647
      · rw [if_pos h1]
        refine (ESpec.fail _).congr' ?_
        intro e i
        constructor
        · rintro rfl; exact ⟨rfl, by omega⟩
        · exact And.left
      · rw [if_neg h1]
        by_cases h2 : (c.toInt * -2).toNat > bufLen
        · rw [if_pos h2]
          unfold bufLen at h2
          refine (ESpec.fail _).congr' ?_
          intro e i
          constructor
          · rintro rfl; exact ⟨rfl, by omega⟩
          · exact And.left
        · rw [if_neg h2]
          unfold bufLen at h2
          refine (ESpec.last _ ((readBytes_spec _).okOr _) (ESpec.okOr _ (readBytes_spec _))).congr' ?_
          intro e i
          rw [no_bytes]
          constructor
          · rintro ⟨rfl, h⟩; exact ⟨rfl, by omega⟩
          · rintro ⟨rfl, h⟩; exact ⟨rfl, by omega⟩
    · rw [if_neg hn]
      by_cases h2 : c.toInt.toNat > bufLen
      · rw [if_pos h2]
        unfold bufLen at h2
        refine (ESpec.fail _).congr' ?_
        intro e i
        constructor
        · rintro rfl; exact ⟨rfl, by omega⟩
        · exact And.left
      · rw [if_neg h2]
        unfold bufLen at h2
        refine (ESpec.last _ ((readBytes_spec _).okOr _) (ESpec.okOr _ (readBytes_spec _))).congr' ?_
        intro e i
        rw [no_bytes]
        constructor
        · rintro ⟨rfl, h⟩; exact ⟨rfl, by omega⟩
        · rintro ⟨rfl, h⟩; exact ⟨rfl, by omega⟩

theorem textE : ESpec N decodeText TextFail := by
  unfold decodeText
  refine (ESpec.bind' (need_spec _ .u32) (needE' _ .u32 fun i => no_field) fun c =>
    textBodyE c).congr' ?_
  intro e i
  constructor
  · rintro (⟨rfl, h⟩ | ⟨c, j, ⟨_, rfl, rfl⟩, rfl, h⟩)
    · exact .count h
    · rcases h with h | h | ⟨h1, h2, h3⟩ | ⟨h1, h2, h3⟩
      · exact .range (.inl h)
      · exact .range (.inr h)
      · exact .narrow h1 h2 h3
      · exact .wide h1 h2 h3
  · intro h
    cases h with
    | count h => exact .inl ⟨rfl, h⟩
    | range h => exact .inr ⟨_, _, ⟨_, rfl, rfl⟩, rfl, by omega⟩
    | narrow h1 h2 h3 => exact .inr ⟨_, _, ⟨_, rfl, rfl⟩, rfl, .inr (.inr (.inl ⟨h1, h2, h3⟩))⟩
    | wide h1 h2 h3 => exact .inr ⟨_, _, ⟨_, rfl, rfl⟩, rfl, .inr (.inr (.inr ⟨h1, h2, h3⟩))⟩

/-! ### Player ids -/

theorem remoteE_one (what : String) {w : Nat} {m : BM Unit (BitVec w)} {f : BitVec w → RemoteId}
    (h : BSpec N m (ofB fun x bs => bs = field w x)) :
    ESpec N (need what m >>= fun x => pure (f x))
      (fun e i => e = .notEnoughDataFor what ∧ i.length < w) :=
  ESpec.last _ (need_spec _ h) (needE' _ h fun _ => no_field)

theorem remoteE_two (what what' : String) (n : Nat) {f : BitVec 64 → List Byte → RemoteId} :
    ESpec N (need what readU64 >>= fun x => need what' (readBytes n) >>= fun u => pure (f x u))
      (fun e i => (e = .notEnoughDataFor what ∧ i.length < 64) ∨
        (e = .notEnoughDataFor what' ∧ 64 ≤ i.length ∧ i.length < 64 + 8 * n)) := by
  refine (ESpec.bind' (need_spec _ .u64) (needE' _ .u64 fun _ => no_field) fun x =>
    ESpec.last _ (need_spec _ (readBytes_spec n)) (needE' _ (readBytes_spec n)
      fun _ => no_bytes)).congr' ?_
  intro e i
  constructor
  · rintro (h | ⟨x, j, ⟨_, rfl, rfl⟩, rfl, h⟩)
    · exact .inl h
    · refine .inr ⟨rfl, ?_⟩
      rw [List.length_append, field_length]
      omega
  · rintro (h | ⟨rfl, h1, h2⟩)
    · exact .inl h
    · obtain ⟨x, hx, he⟩ := Enough.split h1
      refine .inr ⟨BitVec.ofNat 64 x, i.drop 64, ⟨_, rfl, ?_⟩, rfl, ?_⟩
      · rw [field, BitVec.toNat_ofNat, Nat.mod_eq_of_lt hx]; exact he
      · rw [List.length_drop]; omega

theorem remoteE (net : I32) (sid : Byte) : ESpec N (decodeRemoteId net sid) (RemoteFail net sid) := by
  unfold decodeRemoteId
  by_cases h0 : sid = 0#8
  · subst h0
    rw [if_pos rfl]
    refine (ESpec.last _ (need_spec _ (.fld 24)) (needE' _ (.fld 24) fun _ => no_bits)).congr' ?_
    intro e i
    constructor
    · rintro ⟨rfl, h⟩; exact .splitScreen h
    · intro h
      cases h with
      | splitScreen h => exact ⟨rfl, h⟩
      | unknown h => exact absurd (by decide) h
  rw [if_neg h0]
  by_cases h1 : sid = 1#8
  · subst h1
    rw [if_pos rfl]
    refine (remoteE_one _ .u64).congr' ?_
    intro e i
    constructor
    · rintro ⟨rfl, h⟩; exact .steam h
    · intro h
      cases h with
      | steam h => exact ⟨rfl, h⟩
      | unknown h => exact absurd (by decide) h
  rw [if_neg h1]
  by_cases h2 : sid = 2#8
  · subst h2
    rw [if_pos rfl]
    refine (ESpec.bind' (need_spec _ (readBytes_spec _)) (needE' _ (readBytes_spec _) fun _ => no_bytes)
      fun raw => ESpec.bind' (need_spec _ (readBytes_spec _))
        (needE' _ (readBytes_spec _) fun _ => no_bytes) fun unk =>
        remoteE_one _ .u64).congr' ?_
    intro e i
    constructor
    · rintro (⟨rfl, h⟩ | ⟨raw, j, ⟨_, ⟨hr, rfl⟩, rfl⟩, (⟨rfl, h⟩ | ⟨unk, k, ⟨_, ⟨hu, rfl⟩, rfl⟩, rfl, h⟩)⟩)
      · exact .psName h
      · refine .psUnknown ?_ ?_
        · rw [List.length_append, BSpec.bytes_length]; omega
        · rw [List.length_append, BSpec.bytes_length]
          split at h <;> split <;> omega
      · refine .psId ?_ ?_
        · rw [List.length_append, List.length_append, BSpec.bytes_length, BSpec.bytes_length]
          split at hu <;> split <;> omega
        · rw [List.length_append, List.length_append, BSpec.bytes_length, BSpec.bytes_length]
          split at hu <;> split <;> omega
    · intro h
      cases h with
      | unknown h => exact absurd (by decide) h
      | psName h => exact .inl ⟨rfl, h⟩
      | psUnknown h1 h2 =>
        obtain ⟨g1, g2⟩ := (BSpec.bytes_append_iff (n := 16) (i := i)).2 ⟨h1, rfl, rfl⟩
        refine .inr ⟨_, _, ⟨_, ⟨g1, rfl⟩, g2⟩, .inl ⟨rfl, ?_⟩⟩
        rw [List.length_drop]
        split at h2 <;> split <;> omega
      | psId h1 h2 =>
        obtain ⟨g1, g2⟩ := (BSpec.bytes_append_iff (n := 16) (i := i)).2 ⟨by omega, rfl, rfl⟩
        obtain ⟨g3, g4⟩ := (BSpec.bytes_append_iff (n := if net.toInt ≥ 1 then 16 else 8)
          (i := i.drop (8 * 16))).2 ⟨by rw [List.length_drop]; split at h1 <;> split <;> omega, rfl, rfl⟩
        refine .inr ⟨_, _, ⟨_, ⟨g1, rfl⟩, g2⟩, .inr ⟨_, _, ⟨_, ⟨g3, rfl⟩, g4⟩, rfl, ?_⟩⟩
        rw [List.length_drop, List.length_drop]
        split at h2 <;> split <;> omega
  rw [if_neg h2]
  by_cases h4 : sid = 4#8
  · subst h4
    rw [if_pos rfl]
    refine (remoteE_one _ .u64).congr' ?_
    intro e i
    constructor
    · rintro ⟨rfl, h⟩; exact .xbox h
    · intro h
      cases h with
      | xbox h => exact ⟨rfl, h⟩
      | unknown h => exact absurd (by decide) h
  rw [if_neg h4]
  by_cases h5 : sid = 5#8
  · subst h5
    rw [if_pos rfl]
    refine (remoteE_one _ .u64).congr' ?_
    intro e i
    constructor
    · rintro ⟨rfl, h⟩; exact .qq h
    · intro h
      cases h with
      | qq h => exact ⟨rfl, h⟩
      | unknown h => exact absurd (by decide) h
  rw [if_neg h5]
  by_cases h6 : sid = 6#8
  · subst h6
    rw [if_pos rfl]
    refine (remoteE_two _ _ 24).congr' ?_
    intro e i
    constructor
    · rintro (⟨rfl, h⟩ | ⟨rfl, h1, h2⟩)
      · exact .switchId h
      · exact .switchUnknown h1 h2
    · intro h
      cases h with
      | switchId h => exact .inl ⟨rfl, h⟩
      | switchUnknown h1 h2 => exact .inr ⟨rfl, h1, h2⟩
      | unknown h => exact absurd (by decide) h
  rw [if_neg h6]
  by_cases h7 : sid = 7#8
  · subst h7
    rw [if_pos rfl]
    by_cases hn : net.toInt < 10
    · simp only [if_pos hn]
      refine (remoteE_two _ _ 24).congr' ?_
      intro e i
      constructor
      · rintro (⟨rfl, h⟩ | ⟨rfl, h1, h2⟩)
        · exact .psyNetId h
        · exact .psyNetUnknown hn h1 h2
      · intro h
        cases h with
        | psyNetId h => exact .inl ⟨rfl, h⟩
        | psyNetUnknown _ h1 h2 => exact .inr ⟨rfl, h1, h2⟩
        | unknown h => exact absurd (by decide) h
    · simp only [if_neg hn]
      refine (remoteE_one _ .u64).congr' ?_
      intro e i
      constructor
      · rintro ⟨rfl, h⟩; exact .psyNetId h
      · intro h
        cases h with
        | psyNetId h => exact ⟨rfl, h⟩
        | psyNetUnknown h => exact absurd h hn
        | unknown h => exact absurd (by decide) h
  rw [if_neg h7]
  by_cases h11 : sid = 11#8
  · subst h11
    rw [if_pos rfl]
    refine (ESpec.last _ text_spec textE).congr' ?_
    intro e i
    constructor
    · exact .epic
    · intro h
      cases h with
      | epic h => exact h
      | unknown h => exact absurd (by decide) h
  rw [if_neg h11]
  refine (ESpec.fail _).congr' ?_
  intro e i
  constructor
  · rintro rfl
    refine .unknown ?_
    simp only [platforms, List.mem_cons, List.not_mem_nil, or_false, not_or]
    exact ⟨h0, h1, h2, h4, h5, h6, h7, h11⟩
  · intro h
    cases h <;> first | rfl | contradiction

theorem idE (net : I32) (sid : Byte) : ESpec N (decodeUniqueIdWith net sid) (IdFail net sid) := by
  refine (ESpec.bind' (remoteId_spec net sid) (remoteE net sid) fun _ =>
    ESpec.last _ (need_spec _ .u8) (needE' _ .u8 fun _ => no_field)).congr' ?_
  intro e i
  constructor
  · rintro (h | ⟨v, j, ⟨b, h1, rfl⟩, rfl, h2⟩)
    · exact .remote h
    · exact .localId h1 h2
  · intro h
    cases h with
    | remote h => exact .inl h
    | localId h1 h2 => exact .inr ⟨_, _, ⟨_, h1, rfl⟩, rfl, h2⟩

theorem uniqueIdE (net : I32) : ESpec N (decodeUniqueId net) (UniqueIdFail net) := by
  refine (ESpec.bind' (need_spec _ .u8) (needE' _ .u8 fun _ => no_field) fun s => idE net s).congr' ?_
  intro e i
  constructor
  · rintro (⟨rfl, h⟩ | ⟨v, j, ⟨b, rfl, rfl⟩, h⟩)
    · exact .system h
    · exact .id h
  · intro h
    cases h with
    | system h => exact .inl ⟨rfl, h⟩
    | id h => exact .inr ⟨_, _, ⟨_, rfl, rfl⟩, h⟩

theorem partyLeaderE (d : AttrDecoder) : ESpec N d.partyLeader (PartyLeaderFail d.ctx.net) := by
  unfold AttrDecoder.partyLeader
  refine (ESpec.bind' (need_spec _ .u8) (needE' _ .u8 fun _ => no_field) fun s =>
    (?_ : ESpec N _ (fun e i => s ≠ 0#8 ∧ IdFail d.ctx.net s e i))).congr' ?_
  · by_cases h : s = 0#8
    · rw [if_neg (by simpa using h)]
      exact (ESpec.pure _).congr' fun e i => ⟨False.elim, fun h' => h'.1 h⟩
    · rw [if_pos h]
      exact (ESpec.last _ (uniqueIdWith_spec _ s) (idE _ s)).congr' fun e i =>
        ⟨fun h' => ⟨h, h'⟩, And.right⟩
  · intro e i
    constructor
    · rintro (⟨rfl, h⟩ | ⟨v, j, ⟨b, rfl, rfl⟩, h1, h2⟩)
      · exact .system h
      · exact .id h1 h2
    · intro h
      cases h with
      | system h => exact .inl ⟨rfl, h⟩
      | id h1 h2 => exact .inr ⟨_, _, ⟨_, rfl, rfl⟩, h1, h2⟩

theorem repStatTitleE : ESpec N AttrDecoder.repStatTitle RepStatTitleFail := by
  unfold AttrDecoder.repStatTitle
  refine (ESpec.bind' (need_spec _ .bit) (needE' _ .bit fun _ => no_bit) fun _ =>
    ESpec.bind' text_spec textE fun _ => ESpec.bitFixed fun _ => ESpec.fieldFixed .u32 fun _ =>
    ESpec.fieldFixed .u32 fun _ => ESpec.none _).congr' ?_
  intro e i
  constructor
  · rintro (⟨rfl, rfl⟩ | ⟨x, _, ⟨_, rfl, rfl⟩, (h | ⟨s, j, ⟨b, hb, rfl⟩, rfl, h⟩)⟩)
    · exact .empty
    · exact .name h
    · exact RepStatTitleFail.rest (x := x) (b := b) hb (by omega)
  · intro h
    cases h with
    | empty => exact .inl ⟨rfl, rfl⟩
    | name h => exact .inr ⟨_, _, ⟨_, rfl, rfl⟩, .inl h⟩
    | rest hb h => exact .inr ⟨_, _, ⟨_, rfl, rfl⟩, .inr ⟨_, _, ⟨_, hb, rfl⟩, rfl, h⟩⟩

theorem privateMatchE : ESpec N AttrDecoder.privateMatch PrivateMatchFail := by
  unfold AttrDecoder.privateMatch
  refine (ESpec.bind' text_spec textE fun _ =>
    ESpec.bind' (need_spec _ .u32) (needE' _ .u32 fun _ => no_field) fun _ =>
    ESpec.bind' (need_spec _ .u32) (needE' _ .u32 fun _ => no_field) fun _ =>
    ESpec.bind' text_spec textE fun _ => ESpec.bind' text_spec textE fun _ =>
    ESpec.last _ (need_spec _ .bit) (needE' _ .bit fun _ => no_bit)).congr' ?_
  intro e i
  have two : ∀ x y : U32, (field 32 x ++ field 32 y).length = 64 := by
    intro x y; rw [List.length_append, field_length, field_length]
  have split : ∀ j : List Bool, j.length = 64 → ∃ x y : U32, j = field 32 x ++ field 32 y := by
    intro j hj
    obtain ⟨x, hx, e1⟩ := Enough.split (n := 32) (i := j) (by omega)
    obtain ⟨y, hy, e2⟩ := Enough.split (n := 32) (i := j.drop 32) (by rw [List.length_drop]; omega)
    have : (j.drop 32).drop 32 = [] := List.eq_nil_of_length_eq_zero (by simp [hj])
    rw [this, List.append_nil] at e2
    refine ⟨BitVec.ofNat 32 x, BitVec.ofNat 32 y, ?_⟩
    simp only [field, BitVec.toNat_ofNat, Nat.mod_eq_of_lt hx, Nat.mod_eq_of_lt hy]
    rw [← e2, ← e1]
  constructor
  · rintro (h | ⟨m, _, ⟨b, hb, rfl⟩, (⟨rfl, h⟩ | ⟨x, _, ⟨_, rfl, rfl⟩, (⟨rfl, h⟩ |
      ⟨y, _, ⟨_, rfl, rfl⟩, (h | ⟨g, _, ⟨b', hb', rfl⟩, (h | ⟨p, _, ⟨b'', hb'', rfl⟩, rfl, rfl⟩)⟩)⟩)⟩)⟩)
    · exact .mutators h
    · exact .numbers hb (by omega)
    · refine .numbers hb ?_
      rw [List.length_append, field_length]
      omega
    · have := PrivateMatchFail.gameName hb (two x y) h
      rwa [List.append_assoc] at this
    · have := PrivateMatchFail.password hb (two x y) hb' h
      rwa [List.append_assoc] at this
    · have := PrivateMatchFail.flag hb (two x y) hb' hb''
      rwa [List.append_assoc, ← List.append_nil b''] at this
  · intro h
    cases h with
    | mutators h => exact .inl h
    | numbers hb h =>
      refine .inr ⟨_, _, ⟨_, hb, rfl⟩, ?_⟩
      rename_i j
      by_cases h1 : j.length < 32
      · exact .inl ⟨rfl, h1⟩
      · obtain ⟨x, hx, e1⟩ := Enough.split (n := 32) (i := j) (by omega)
        refine .inr ⟨BitVec.ofNat 32 x, j.drop 32, ⟨_, rfl, ?_⟩, .inl ⟨rfl, ?_⟩⟩
        · simp only [field, BitVec.toNat_ofNat, Nat.mod_eq_of_lt hx]; exact e1
        · rw [List.length_drop]; omega
    | gameName hb hj h =>
      obtain ⟨x, y, rfl⟩ := split _ hj
      exact .inr ⟨_, _, ⟨_, hb, rfl⟩, .inr ⟨x, _, ⟨_, rfl, List.append_assoc _ _ _⟩, .inr ⟨y, _, ⟨_, rfl, rfl⟩,
        .inl h⟩⟩⟩
    | password hb hj hb' h =>
      obtain ⟨x, y, rfl⟩ := split _ hj
      exact .inr ⟨_, _, ⟨_, hb, rfl⟩, .inr ⟨x, _, ⟨_, rfl, List.append_assoc _ _ _⟩, .inr ⟨y, _, ⟨_, rfl, rfl⟩,
        .inr ⟨_, _, ⟨_, hb', rfl⟩, .inl h⟩⟩⟩⟩
    | flag hb hj hb' hb'' =>
      obtain ⟨x, y, rfl⟩ := split _ hj
      exact .inr ⟨_, _, ⟨_, hb, rfl⟩, .inr ⟨x, _, ⟨_, rfl, List.append_assoc _ _ _⟩, .inr ⟨y, _, ⟨_, rfl, rfl⟩,
        .inr ⟨_, _, ⟨_, hb', rfl⟩, .inr ⟨_, [], ⟨_, hb'', (List.append_nil _).symm⟩, rfl, rfl⟩⟩⟩⟩⟩

/-! ### Reservations -/

theorem reservationName_enough (fuel : Nat) (acc : Str) (env : Env) (r : Reader)
    (hv : r.Valid) (hl : 8 * fuel ≤ r.bits.length) (e : AttributeError) (r' : Reader) :
    reservationName fuel acc env r ≠ .err e r' := by
  induction fuel generalizing acc r with
  | zero => intro h; cases h
  | succ fuel ih =>
    rw [reservationName]
    split
    · obtain ⟨c, r1, h1, h2, h3⟩ := (Enough.readU8.need "Reservation") env r hv (by omega)
      rw [BM.bind_ok h1]
      split
      · intro h; cases h
      · exact ih _ r1 h2 (by omega)
    · intro h; cases h

theorem latin1_enough (i : List Bool) : ∃ b a o, ofB Latin1Name a (i ++ b) o := by
  obtain ⟨K, hK⟩ : ∃ K, K = 8 * 256 := ⟨_, rfl⟩
  refine ⟨List.replicate K false, ?_⟩
  have hv : (Reader.mk (i ++ List.replicate K false) 0).Valid := ⟨Nat.zero_le _, by simp⟩
  have hs : BSpec (i ++ List.replicate K false).length _ _ := latin1Name_spec
  have hg := hs.good Env.default64 _ hv (Nat.le_refl _)
  cases hm : reservationName 256 [] Env.default64 ⟨i ++ List.replicate K false, 0⟩ with
  | ok a r' => exact ⟨a, _, hs.ok_rel hv (Nat.le_refl _) hm⟩
  | err e r' =>
    refine absurd hm (reservationName_enough 256 [] _ _ hv ?_ e r')
    rw [← hK, List.length_append, List.length_replicate]
    omega
  | fault x => rw [hm] at hg; exact hg.elim

theorem reservationName_err (fuel : Nat) (acc : Str) (env : Env) (r : Reader)
    (e : AttributeError) (r' : Reader) (h : reservationName fuel acc env r = .err e r') :
    e = .notEnoughDataFor "Reservation" := by
  induction fuel generalizing acc r with
  | zero => cases h
  | succ fuel ih =>
    rw [reservationName] at h
    split at h
    · cases hm : need "Reservation" readU8 env r with
      | ok c r1 =>
        rw [BM.bind_ok hm] at h
        split at h
        · cases h
        · exact ih _ _ h
      | err e1 r1 =>
        rw [BM.bind_err hm] at h
        cases h
        unfold need BM.okOr BM.mapErr at hm
        revert hm
        cases readU8 env r <;> intro hm <;> cases hm
        rfl
      | fault x =>
        change BM.bind _ _ _ _ = _ at h
        unfold BM.bind at h
        rw [hm] at h
        cases h
    · cases h

theorem latin1E : ESpec N (reservationName 256 [])
    (fun e i => e = .notEnoughDataFor "Reservation" ∧ CutOff Latin1Name i) :=
  (ESpec.single _ latin1Name_spec fun env r e r' _ h => reservationName_err _ _ env r e r' h).congr'
    fun e i => by rw [cutOff_iff' (fun _ => latin1Name_spec) latin1_enough]

/-- What fails in the name of a reservation. -/
def NameFail (u : UniqueId) (e : AttributeError) (i : List Bool) : Prop :=
  (u.systemId ≠ 0 ∧ TextFail e i) ∨
  (u.systemId = 0 ∧ u.remoteId ≠ .splitScreen 0 ∧ e = .notEnoughDataFor "Reservation" ∧
    CutOff Latin1Name i)

theorem nameE (u : UniqueId) :
    ESpec N (if u.systemId ≠ 0#8 then do
      let s ← decodeText
      pure (some s)
    else if u.remoteId ≠ .splitScreen 0#32 then do
      let s ← reservationName 256 []
      pure (some s)
    else pure none) (NameFail u) := by
  unfold NameFail
  by_cases h : u.systemId = 0#8
  · rw [if_neg (by simpa using h)]
    by_cases hr : u.remoteId = .splitScreen 0#32
    · rw [if_neg (by simpa using hr)]
      refine (ESpec.pure _).congr' fun e i => ⟨False.elim, ?_⟩
      rintro (⟨h', _⟩ | ⟨_, h', _⟩)
      · exact h' h
      · exact h' hr
    · rw [if_pos hr]
      refine (ESpec.last _ latin1Name_spec latin1E).congr' fun e i => ⟨fun h' => .inr ⟨h, hr, h'⟩, ?_⟩
      rintro (⟨h', _⟩ | ⟨_, _, h'⟩)
      · exact absurd h h'
      · exact h'
  · rw [if_pos h]
    refine (ESpec.last _ text_spec textE).congr' fun e i => ⟨fun h' => .inl ⟨h, h'⟩, ?_⟩
    rintro (⟨_, h'⟩ | ⟨h', _⟩)
    · exact h'
    · exact absurd h' h

theorem unknown3E (d : AttrDecoder) :
    ESpec N (if d.version.ge 868 12 0 then do
        let x ← need "Reservation" (readBits 6)
        pure (some (BitVec.ofNat 8 x))
      else pure none) (fun e i => e = .notEnoughDataFor "Reservation" ∧ d.ctx.atLeast 868 12 0 ∧
        i.length < 6) := by
  by_cases hv : d.ctx.atLeast 868 12 0
  · rw [if_pos ((ge_iff d _ _ _).2 hv)]
    exact (ESpec.last _ (need_spec _ (.fld 6)) (needE' _ (.fld 6) fun _ => no_bits)).congr'
      fun e i => ⟨fun h => ⟨h.1, hv, h.2⟩, fun h => ⟨h.1, h.2.2⟩⟩
  · rw [if_neg (fun h => hv ((ge_iff d _ _ _).1 h))]
    exact (ESpec.pure _).congr' fun e i => ⟨False.elim, fun h => hv h.2.1⟩

theorem flagsE {β : Type} (d : AttrDecoder) (f : Bool → Bool → Option Byte → β) :
    ESpec N (need "Reservation" readBit >>= fun a => need "Reservation" readBit >>= fun b =>
      (if d.version.ge 868 12 0 then do
        let x ← need "Reservation" (readBits 6)
        pure (some (BitVec.ofNat 8 x))
      else pure none) >>= fun c => pure (f a b c))
      (fun e i => e = .notEnoughDataFor "Reservation" ∧ (d.ctx.atLeast 868 12 0 → i.length < 8) ∧
        (¬d.ctx.atLeast 868 12 0 → i.length < 2)) := by
  refine (ESpec.bind' (need_spec _ .bit) (needE' _ .bit fun _ => no_bit) fun a =>
    ESpec.bind' (need_spec _ .bit) (needE' _ .bit fun _ => no_bit) fun b =>
    ESpec.last (f a b) (unknown3_spec d) (unknown3E d)).congr' ?_
  intro e i
  constructor
  · rintro (⟨rfl, rfl⟩ | ⟨x, _, ⟨_, rfl, rfl⟩, (⟨rfl, rfl⟩ | ⟨y, _, ⟨_, rfl, rfl⟩, rfl, h1, h2⟩)⟩)
    · exact ⟨rfl, fun _ => by simp, fun _ => by simp⟩
    · exact ⟨rfl, fun _ => by simp, fun _ => by simp⟩
    · exact ⟨rfl, fun _ => by simp; omega, fun h => absurd h1 h⟩
  · rintro ⟨rfl, h1, h2⟩
    match i with
    | [] => exact .inl ⟨rfl, rfl⟩
    | [x] => exact .inr ⟨x, [], ⟨_, rfl, rfl⟩, .inl ⟨rfl, rfl⟩⟩
    | x :: y :: j =>
      refine .inr ⟨x, y :: j, ⟨_, rfl, rfl⟩, .inr ⟨y, j, ⟨_, rfl, rfl⟩, rfl, ?_⟩⟩
      simp only [List.length_cons] at h1 h2
      have hv : d.ctx.atLeast 868 12 0 := Classical.byContradiction fun h => by have := h2 h; omega
      exact ⟨hv, by have := h1 hv; omega⟩

theorem reservationE (d : AttrDecoder) : ESpec N d.reservation (ReservationFail d.ctx) := by
  rw [reservation_eq]
  refine (ESpec.bind' (need_spec _ (.fld 3)) (needE' _ (.fld 3) fun _ => no_bits) fun k =>
    ESpec.bind' (uniqueId_spec _) (uniqueIdE _) fun u =>
    ESpec.bind' (nameRule_spec u) (nameE u) fun _ =>
    flagsE d _).congr' ?_
  intro e i
  have nar : ∀ x : Nat, x < 2 ^ 3 → Narrow 3 (BitVec.ofNat 32 x) (bits 3 x) := by
    intro x hx
    unfold Narrow
    rw [BitVec.toNat_ofNat, Nat.mod_eq_of_lt (by omega)]
    exact ⟨hx, rfl⟩
  constructor
  · rintro (⟨rfl, h⟩ | ⟨k, _, ⟨_, ⟨hk, rfl⟩, rfl⟩, (h | ⟨u, _, ⟨b, hu, rfl⟩,
      ((⟨h1, h2⟩ | ⟨h1, h2, rfl, h3⟩) | ⟨t, _, ⟨s, hs, rfl⟩, rfl, h1, h2⟩)⟩)⟩)
    · exact .number h
    · exact .id (nar k hk) h
    · exact .text (nar k hk) hu h1 h2
    · exact .latin1 (nar k hk) hu h1 h2 h3
    · exact .flags (nar k hk) hu hs h1 h2
  · intro h
    cases h with
    | number h => exact .inl ⟨rfl, h⟩
    | id hk h =>
      obtain ⟨hk, rfl⟩ := hk
      exact .inr ⟨_, _, ⟨_, ⟨hk, rfl⟩, rfl⟩, .inl h⟩
    | text hk hu h1 h2 =>
      obtain ⟨hk, rfl⟩ := hk
      exact .inr ⟨_, _, ⟨_, ⟨hk, rfl⟩, rfl⟩, .inr ⟨_, _, ⟨_, hu, rfl⟩, .inl (.inl ⟨h1, h2⟩)⟩⟩
    | latin1 hk hu h1 h2 h3 =>
      obtain ⟨hk, rfl⟩ := hk
      exact .inr ⟨_, _, ⟨_, ⟨hk, rfl⟩, rfl⟩, .inr ⟨_, _, ⟨_, hu, rfl⟩, .inl (.inr ⟨h1, h2, rfl, h3⟩)⟩⟩
    | flags hk hu hs h1 h2 =>
      obtain ⟨hk, rfl⟩ := hk
      exact .inr ⟨_, _, ⟨_, ⟨hk, rfl⟩, rfl⟩, .inr ⟨_, _, ⟨_, hu, rfl⟩, .inr ⟨_, _, ⟨_, hs, rfl⟩, rfl, h1, h2⟩⟩⟩

/-! ### Products -/

theorem ESpec.unit {α : Type} {m : BM Unit α} {R : BRel α} (h : BSpec N m R) :
    ESpec N m (fun _ i => ∀ a o, ¬R a i o) :=
  (ESpec.single () h fun _ _ _ _ _ _ => rfl).congr' fun _ _ => ⟨And.right, fun h => ⟨rfl, h⟩⟩

/-- For decoders without error value: what is not accepted. -/
theorem ESpec.no {α : Type} {m : BM Unit α} {R : BRel α} {F : List Bool → Prop}
    (hs : ∀ N, BSpec N m R) (h : ∀ N, ESpec N m (fun _ i => F i)) (i : List Bool) :
    (∀ a o, ¬R a i o) ↔ F i := by
  have hv : (Reader.mk i 0).Valid := ⟨Nat.zero_le _, by simp⟩
  have h1 := (ESpec.unit (hs i.length)) Env.default64 ⟨i, 0⟩ hv (Nat.le_refl _) ()
  have h2 := (h i.length) Env.default64 ⟨i, 0⟩ hv (Nat.le_refl _) ()
  exact h1.symm.trans h2

theorem productValueE (d : AttrDecoder) (hp : d.product.version = d.version) (obj : ObjectId) :
    ESpec N (d.product.decode obj) (fun _ i => (TitleObject d.ctx obj ∧ ∃ e, TextFail e i) ∨
      (¬TitleObject d.ctx obj ∧ CutOff (ProductEnc d.ctx obj) i)) := by
  by_cases ht : TitleObject d.ctx obj
  · obtain ⟨h1, h2, h3⟩ := id ht
    have h1' : obj = d.product.titleInd := h1
    have h2' : obj ≠ d.product.colorInd := h2
    have h3' : obj ≠ d.product.paintedInd := h3
    have he : d.product.decode obj = (BM.toOption decodeText >>= fun s => pure (.title s)) := by
      unfold ProductDecoder.decode
      rw [if_neg h2', if_neg h3', if_pos h1']
    rw [he]
    refine (ESpec.last _ (BSpec.toOption text_spec) (ESpec.mapErr _ textE)).congr' ?_
    intro e i
    constructor
    · rintro ⟨e', h, _⟩; exact .inl ⟨ht, e', h⟩
    · rintro (⟨_, e', h⟩ | ⟨h, _⟩)
      · exact ⟨e', h, rfl⟩
      · exact absurd ht h
  · obtain ⟨K, hK⟩ := Enough.productValue d.product obj (by
      intro h
      by_cases h1 : obj = d.product.colorInd
      · exact .inl h1
      · by_cases h2 : obj = d.product.paintedInd
        · exact .inr h2
        · exact absurd ⟨h, h1, h2⟩ ht)
    refine (ESpec.unit (productValue_spec d hp obj)).congr' ?_
    intro e i
    rw [cutOff_iff (fun _ => productValue_spec d hp obj) hK]
    constructor
    · exact fun h => .inr ⟨ht, h⟩
    · rintro (⟨h, _⟩ | ⟨_, h⟩)
      · exact absurd h ht
      · exact h

theorem productE (d : AttrDecoder) (hp : d.product.version = d.version) :
    ESpec N d.decodeProduct (fun _ i => ProductFail d.ctx i) := by
  unfold AttrDecoder.decodeProduct
  refine (ESpec.bind' .bit (ESpec.unit .bit) fun _ => ESpec.bind' .u32 (ESpec.unit .u32) fun obj =>
    ESpec.last _ (productValue_spec d hp obj) (productValueE d hp obj)).congr' ?_
  intro e i
  simp only [no_bit, no_field]
  unfold ProductFail
  constructor
  · rintro (rfl | ⟨x, _, ⟨_, rfl, rfl⟩, (h | ⟨obj, j, ⟨_, rfl, rfl⟩, h⟩)⟩)
    · exact .inl (by simp)
    · exact .inl (by simp; omega)
    · exact .inr ⟨x, obj, j, rfl, h⟩
  · rintro (h | ⟨x, obj, j, rfl, h⟩)
    · cases i with
      | nil => exact .inl rfl
      | cons x i =>
        simp only [List.length_cons] at h
        exact .inr ⟨x, i, ⟨_, rfl, rfl⟩, .inl (by omega)⟩
    · exact .inr ⟨x, _, ⟨_, rfl, rfl⟩, .inr ⟨obj, j, ⟨_, rfl, rfl⟩, h⟩⟩

theorem itemsE {α : Type} {f : BM Unit α} {g : α → List Bool → Prop} {F : List Bool → Prop}
    (hs : BSpec N f (ofB g)) (h : ESpec N f (fun _ i => F i)) (n : Nat) :
    ESpec N (replicateBM n f) (fun _ i => ItemsFail g F n i) := by
  induction n with
  | zero =>
    refine (ESpec.pure _).congr' fun e i => ⟨False.elim, ?_⟩
    intro h
    cases h
  | succ n ih =>
    refine (ESpec.bind' hs h fun a => ESpec.last _ (items_spec n hs) ih).congr' ?_
    intro e i
    constructor
    · rintro (h | ⟨a, _, ⟨b, hb, rfl⟩, h⟩)
      · exact .here h
      · exact .later hb h
    · intro h
      cases h with
      | here h => exact .inl h
      | later hb h => exact .inr ⟨_, _, ⟨_, hb, rfl⟩, h⟩

theorem byteListE {α : Type} {f : BM Unit α} {g : α → List Bool → Prop} {F : List Bool → Prop}
    (hs : BSpec N f (ofB g)) (h : ESpec N f (fun _ i => F i)) :
    ESpec N (do let n ← readU8; replicateBM n.toNat f) (fun _ i => ByteListFail g F i) := by
  refine (ESpec.bind' .u8 (ESpec.unit .u8) fun n => itemsE hs h n.toNat).congr' ?_
  intro e i
  simp only [no_field]
  unfold ByteListFail
  constructor
  · rintro (h | ⟨n, j, ⟨_, rfl, rfl⟩, h⟩)
    · exact .inl h
    · exact .inr ⟨n, j, rfl, h⟩
  · rintro (h | ⟨n, j, rfl, h⟩)
    · exact .inl h
    · exact .inr ⟨n, j, ⟨_, rfl, rfl⟩, h⟩

theorem onlineE (d : AttrDecoder) (hp : d.product.version = d.version) :
    ESpec N d.onlineLoadout (fun _ i => OnlineLoadoutFail d.ctx i) :=
  byteListE (byteList_spec (product_spec d hp)) (byteListE (product_spec d hp) (productE d hp))

theorem loadoutsOnlineE (d : AttrDecoder) (hp : d.product.version = d.version) :
    ESpec N d.loadoutsOnline (fun _ i => LoadoutsOnlineFail d.ctx i) := by
  unfold AttrDecoder.loadoutsOnline
  refine (ESpec.bind' (onlineLoadout_spec d hp) (onlineE d hp) fun _ =>
    ESpec.bind' (onlineLoadout_spec d hp) (onlineE d hp) fun _ =>
    ESpec.bind' .bit (ESpec.unit .bit) fun _ => ESpec.last _ .bit (ESpec.unit .bit)).congr' ?_
  intro e i
  simp only [no_bit]
  unfold LoadoutsOnlineFail
  constructor
  · rintro (h | ⟨v, _, ⟨b, hb, rfl⟩, (h | ⟨v', _, ⟨b', hb', rfl⟩, (rfl | ⟨x, _, ⟨_, rfl, rfl⟩, rfl⟩)⟩)⟩)
    · exact .inl h
    · exact .inr (.inl ⟨v, b, _, hb, rfl, h⟩)
    · exact .inr (.inr ⟨v, b, v', b', [], hb, hb', rfl, by simp⟩)
    · exact .inr (.inr ⟨v, b, v', b', [x], hb, hb', rfl, by simp⟩)
  · rintro (h | ⟨v, b, j, hb, rfl, h⟩ | ⟨v, b, v', b', j, hb, hb', rfl, h⟩)
    · exact .inl h
    · exact .inr ⟨v, _, ⟨b, hb, rfl⟩, .inl h⟩
    · refine .inr ⟨v, _, ⟨b, hb, rfl⟩, .inr ⟨v', _, ⟨b', hb', rfl⟩, ?_⟩⟩
      match j, h with
      | [], _ => exact .inl rfl
      | [x], _ => exact .inr ⟨x, [], ⟨_, rfl, rfl⟩, rfl⟩
      | _ :: _ :: _, h => simp only [List.length_cons] at h; omega

/-! ### Rigid bodies -/

/-- The part of `rigidBody` that can fail. -/
def rigidHead (d : AttrDecoder) : BM Unit (Bool × Vector3f × Quaternion) := do
  let sleeping ← readBit
  let location ← Vector3f.decode d.version.netVersion
  let rotation ← (if d.version.netVersion.toInt ≥ 7 then Quaternion.decode
    else Quaternion.decodeCompressed)
  pure (sleeping, location, rotation)

theorem rigidHead_spec (d : AttrDecoder) : BSpec N (rigidHead d) (ofB (RigidBodyHead d.ctx)) := by
  have heq : rigidHead d = readBit >>= fun sleeping =>
      Vector3f.decode d.version.netVersion >>= fun location =>
      (if d.version.netVersion.toInt ≥ 7 then Quaternion.decode
        else Quaternion.decodeCompressed) >>= fun rotation =>
      pure (sleeping, location, rotation) := by
    unfold rigidHead
    by_cases hn : d.version.netVersion.toInt ≥ 7
    · simp only [if_pos hn]
    · simp only [if_neg hn]
  rw [heq]
  refine (BSpec.seq .bit fun _ => BSpec.seq (v3_spec d) fun _ =>
    BSpec.seq (bodyRotation_spec d) fun _ => BSpec.ret _).gr ?_
  rintro ⟨a, b, c⟩ bs
  simp only [RigidBodyHead]
  constructor
  · rintro ⟨_, _, _, rfl, ⟨_, l, _, hl, ⟨_, r, _, hr, ⟨h, rfl⟩, rfl⟩, rfl⟩, rfl⟩
    cases h
    exact ⟨l, r, hl, hr, by simp⟩
  · rintro ⟨l, r, hl, hr, rfl⟩
    exact ⟨a, _, _, rfl, ⟨b, l, _, hl, ⟨c, r, [], hr, ⟨rfl, rfl⟩, (List.append_nil _).symm⟩, rfl⟩, rfl⟩

theorem rigidHead_enough (d : AttrDecoder) : ∃ K, Enough K (rigidHead d) := by
  unfold rigidHead
  exact ⟨_, by enough⟩

theorem rigidBody_no (d : AttrDecoder) (i : List Bool) :
    (∀ v o, ¬((∃ bs, RigidBodyEnc d.ctx v bs ∧ i = bs ++ o) ∨ RigidBodyTrunc d.ctx v i o)) ↔
      CutOff (RigidBodyHead d.ctx) i := by
  obtain ⟨K, hK⟩ := rigidHead_enough d
  rw [← cutOff_iff (fun _ => rigidHead_spec d) hK]
  constructor
  · rintro hn ⟨sl, lo, ro⟩ o ⟨_, ⟨l, r, hl, hr, rfl⟩, rfl⟩
    simp only at hl hr hn
    cases sl with
    | true =>
      refine hn ⟨true, lo, ro, none, none⟩ o (.inl ⟨_, ⟨l, r, [], [], hl, hr, ?_, ?_, rfl⟩, by simp⟩)
      · exact .inr ⟨by simp, rfl, rfl⟩
      · exact .inr ⟨by simp, rfl, rfl⟩
    | false =>
      have vel : ∀ j : List Bool, ∃ v k, Velocity d.ctx.net v j k := by
        intro j
        have hs : BSpec j.length (BM.attempt (Vector3f.decode d.ctx.net) : BM Unit _)
          (Velocity d.ctx.net) := velocity_spec d.ctx.net
        have hv : (Reader.mk j 0).Valid := ⟨Nat.zero_le _, by simp⟩
        have hg := hs.good Env.default64 ⟨j, 0⟩ hv (Nat.le_refl _)
        cases hm : (BM.attempt (Vector3f.decode d.ctx.net) : BM Unit _) Env.default64 ⟨j, 0⟩ with
        | ok a r' => exact ⟨a, _, hs.ok_rel hv (Nat.le_refl _) hm⟩
        | err e r' =>
          unfold BM.attempt at hm
          revert hm
          cases Vector3f.decode d.ctx.net Env.default64 ⟨j, 0⟩ <;> intro hm <;> cases hm
        | fault x => rw [hm] at hg; exact hg.elim
      obtain ⟨li, k, h1⟩ := vel o
      obtain ⟨an, o', h2⟩ := vel k
      have hi : [false] ++ (l ++ r) ++ o = [false] ++ (l ++ (r ++ o)) := by simp
      cases li with
      | none => exact hn ⟨false, lo, ro, none, an⟩ o' (.inr ⟨rfl, .inl rfl, l, r, o, k, hl, hr, hi, h1, h2⟩)
      | some x =>
        cases an with
        | none =>
          exact hn ⟨false, lo, ro, some x, none⟩ o' (.inr ⟨rfl, .inr rfl, l, r, o, k, hl, hr, hi, h1, h2⟩)
        | some y =>
          obtain ⟨bx, hx, rfl⟩ := h1
          obtain ⟨by', hy, rfl⟩ := h2
          exact hn ⟨false, lo, ro, some x, some y⟩ o' (.inl ⟨_, ⟨l, r, bx, by', hl, hr,
            .inl ⟨rfl, x, rfl, hx⟩, .inl ⟨rfl, y, rfl, hy⟩, rfl⟩, by simp⟩)
  · rintro hn v o (⟨_, ⟨l, r, a, b, hl, hr, _, _, rfl⟩, rfl⟩ | ⟨_, _, l, r, j, k, hl, hr, rfl, _⟩)
    · exact hn (v.sleeping, v.location, v.rotation) (a ++ (b ++ o)) ⟨_, ⟨l, r, hl, hr, rfl⟩, by simp⟩
    · exact hn (v.sleeping, v.location, v.rotation) j ⟨_, ⟨l, r, hl, hr, rfl⟩, by simp⟩

/-! ### Every attribute -/

theorem plain_err (d : AttrDecoder) (tag : AttributeTag) (what : String)
    (h : plainName d.ctx tag = some what) (env : Env) (r : Reader) (e : AttributeError) (r' : Reader)
    (hx : d.decode tag env r = .err e r') : e = .notEnoughDataFor what := by
  have need_err : ∀ {α : Type} {w : String} {m : BM Unit α},
      need w m env r = .err e r' → e = .notEnoughDataFor w := by
    intro α w m hm
    unfold need BM.okOr BM.mapErr at hm
    revert hm
    cases m env r <;> intro hm <;> cases hm
    rfl
  have named_err : ∀ {α : Type} {w : String} {f : α → Attribute} {m : BM Unit α},
      AttrDecoder.named w f m env r = .err e r' → e = .notEnoughDataFor w := by
    intro α w f m hm
    cases hn : need w m env r with
    | ok a r1 =>
      unfold AttrDecoder.named at hm
      rw [BM.bind_ok hn] at hm
      cases hm
    | err e1 r1 =>
      unfold AttrDecoder.named at hm
      rw [BM.bind_err hn] at hm
      cases hm
      exact need_err hn
    | fault x =>
      unfold AttrDecoder.named at hm
      change BM.bind _ _ _ _ = _ at hm
      unfold BM.bind at hm
      rw [hn] at hm
      cases hm
  cases tag <;> first | (cases h; done) | skip
  case qWordString =>
    have hr : d.isRl223 = false := by
      cases hb : d.isRl223 with
      | false => rfl
      | true =>
        have : d.ctx.rl223 = true := hb
        simp [plainName, this] at h
    have he : d.decode .qWordString = AttrDecoder.named "QWord" .qWord readU64 := by
      show (if d.isRl223 = true then _ else _) = _
      rw [hr, if_neg (by decide)]
    have hr' : d.ctx.rl223 = false := hr
    have hw : plainName d.ctx .qWordString = some "QWord" := by
      show (if d.ctx.rl223 = true then none else some "QWord") = _
      rw [hr', if_neg (by decide)]
    rw [hw] at h
    cases h
    rw [he] at hx
    exact named_err hx
  all_goals
    cases h
    first
      | exact named_err hx
      | exact need_err hx

/-- The decoder of every attribute type fails exactly as `AttrFails` describes. -/
theorem decodeE (d : AttrDecoder) (hp : d.product.version = d.version) (tag : AttributeTag) :
    ESpec N (d.decode tag) (AttrFails d.ctx tag) := by
  cases hw : plainName d.ctx tag with
  | some what =>
    have ht : tag ≠ .rigidBody := by rintro rfl; cases hw
    obtain ⟨K, hK⟩ := Enough.decode d tag what hw
    refine (ESpec.single (.notEnoughDataFor what) (decode_enc d hp tag ht)
      fun env r e r' _ hx => plain_err d tag what hw env r e r' hx).congr' ?_
    intro e i
    rw [cutOff_iff (fun _ => decode_enc d hp tag ht) hK]
    constructor
    · rintro ⟨rfl, h⟩; exact .plain hw h
    · intro h
      cases h with
      | plain h1 h2 => rw [hw] at h1; cases h1; exact ⟨rfl, h2⟩
      | qWordString h1 _ => simp [plainName, h1] at hw
      | _ => cases hw
  | none =>
    cases tag <;> first | (cases hw; done) | skip
    case qWordString =>
      have hr : d.isRl223 = true := by
        cases hb : d.isRl223 with
        | true => rfl
        | false =>
          have : d.ctx.rl223 = false := hb
          simp [plainName, this] at hw
      have he : d.decode .qWordString = AttrDecoder.mapAttr .string decodeText := by
        show (if d.isRl223 = true then _ else _) = _
        rw [hr, if_pos rfl]
      rw [he]
      refine (ESpec.last _ text_spec textE).congr' fun e i => ⟨.qWordString hr, ?_⟩
      intro h
      cases h with
      | plain h1 => rw [hw] at h1; cases h1
      | qWordString _ h => exact h
    case rigidBody =>
      refine (ESpec.last _ (need_spec "Rigid Body" (rigidBody_spec d))
        (needE' "Rigid Body" (rigidBody_spec d) fun i => rigidBody_no d i)).congr' ?_
      intro e i
      constructor
      · rintro ⟨rfl, h⟩; exact .rigidBody h
      · intro h
        cases h with
        | plain h1 => cases h1
        | rigidBody h => exact ⟨rfl, h⟩
    case notImplemented =>
      refine (ESpec.fail _).congr' fun e i => ⟨?_, ?_⟩
      · rintro rfl; exact .unimplemented
      · intro h
        cases h with
        | plain h1 => cases h1
        | unimplemented => rfl
    case string =>
      refine (ESpec.last _ text_spec textE).congr' fun e i => ⟨.string, ?_⟩
      intro h
      cases h with
      | plain h1 => cases h1
      | string h => exact h
    case uniqueId =>
      refine (ESpec.last _ (uniqueId_spec d.version.netVersion) (uniqueIdE d.version.netVersion)).congr' fun e i =>
        ⟨fun h => AttrFails.uniqueId (d := d.ctx) h, ?_⟩
      intro h
      cases h with
      | plain h1 => cases h1
      | uniqueId h => exact h
    case reservation =>
      refine (ESpec.last _ (reservation_spec d) (reservationE d)).congr' fun e i => ⟨.reservation, ?_⟩
      intro h
      cases h with
      | plain h1 => cases h1
      | reservation h => exact h
    case partyLeader =>
      refine (ESpec.last _ (partyLeader_spec d) (partyLeaderE d)).congr' fun e i => ⟨.partyLeader, ?_⟩
      intro h
      cases h with
      | plain h1 => cases h1
      | partyLeader h => exact h
    case privateMatchSettings =>
      refine (ESpec.last _ privateMatch_spec privateMatchE).congr' fun e i => ⟨.privateMatch, ?_⟩
      intro h
      cases h with
      | plain h1 => cases h1
      | privateMatch h => exact h
    case repStatTitle =>
      refine (ESpec.last _ repStatTitle_spec repStatTitleE).congr' fun e i => ⟨.repStatTitle, ?_⟩
      intro h
      cases h with
      | plain h1 => cases h1
      | repStatTitle h => exact h
    case loadoutOnline =>
      refine (ESpec.last _ (need_spec "Loadout Online" (onlineLoadout_spec d hp))
        (needE' "Loadout Online" (onlineLoadout_spec d hp)
          (ESpec.no (fun _ => onlineLoadout_spec d hp) fun _ => onlineE d hp))).congr' ?_
      intro e i
      constructor
      · rintro ⟨rfl, h⟩; exact .loadoutOnline h
      · intro h
        cases h with
        | plain h1 => cases h1
        | loadoutOnline h => exact ⟨rfl, h⟩
    case loadoutsOnline =>
      refine (ESpec.last _ (need_spec "Loadouts online" (loadoutsOnline_spec d hp))
        (needE' "Loadouts online" (loadoutsOnline_spec d hp)
          (ESpec.no (fun _ => loadoutsOnline_spec d hp) fun _ => loadoutsOnlineE d hp))).congr' ?_
      intro e i
      constructor
      · rintro ⟨rfl, h⟩; exact .loadoutsOnline h
      · intro h
        cases h with
        | plain h1 => cases h1
        | loadoutsOnline h => exact ⟨rfl, h⟩

end Boxcars
