import Verif.Proofs.ValueFail
import Verif.Proofs.Text
import Verif.Spec.CutShort
/-!
# Values that are reported as cut off and are
-/
namespace Boxcars
open Spec Classical

theorem bits_field {w : Nat} {i : Bits} (h : i.length = w) : ∃ x : BitVec w, i = field w x := by
  refine ⟨BitVec.ofNat w (bitsToNat i), ?_⟩
  have := (field_append_iff (w := w) (x := BitVec.ofNat w (bitsToNat i)) (i := i) (o := [])).2
    ⟨by omega, by rw [List.take_of_length_le (by omega)], List.drop_of_length_le (by omega)⟩
  rwa [List.append_nil] at this

theorem bits_bytes {n : Nat} {i : Bits} (h : i.length = 8 * n) :
    ∃ bs : List Byte, bs.length = n ∧ i = bytes bs := by
  obtain ⟨h1, h2⟩ := (BSpec.bytes_append_iff (n := n) (bs := bytesOfBits n i) (i := i) (o := [])).2
    ⟨by omega, rfl, List.drop_of_length_le (by omega)⟩
  rw [List.append_nil] at h2
  exact ⟨_, h1, h2⟩

theorem bits_parts {i : Bits} {n k : Nat} (h : i.length = n + k) :
    ∃ a b, i = a ++ b ∧ a.length = n ∧ b.length = k :=
  ⟨i.take n, i.drop n, (List.take_append_drop n i).symm, by rw [List.length_take]; omega,
    by rw [List.length_drop]; omega⟩

/-- A representation of fixed length. -/
theorem cut_fixed {α : Type} {g : α → Bits → Prop} {K : Nat} (hg : ∀ i, i.length = K → ∃ v, g v i)
    {i : Bits} (h : i.length < K) : CutOff g i := by
  obtain ⟨v, hv⟩ := hg (i ++ List.replicate (K - i.length) false)
    (by rw [List.length_append, List.length_replicate]; omega)
  refine ⟨v, _, fun e => ?_, hv⟩
  have := congrArg List.length e
  rw [List.length_replicate, List.length_nil] at this
  omega

/-- More of it follows. -/
theorem cut_more {α β : Type} {g : α → Bits → Prop} {g' : β → Bits → Prop} {p q i : Bits}
    (h : CutOff g i) (hg : ∀ v b, g v b → ∃ v', g' v' (p ++ (b ++ q))) : CutOff g' (p ++ i) := by
  obtain ⟨v, b, hb, hv⟩ := h
  obtain ⟨v', hv'⟩ := hg v _ hv
  refine ⟨v', b ++ q, by simp [hb], ?_⟩
  simpa only [List.append_assoc] using hv'

theorem cp1252_any (body : List Byte) : ∃ s, IsCp1252 s body := ⟨_, (isCp1252_iff _ _).2 rfl⟩

theorem bits_units {k : Nat} {i : Bits} (h : i.length = 16 * k) :
    ∃ x : List (BitVec 16), x.length = k ∧ i = bytes (x.flatMap fun u => le 2 u.toNat) := by
  obtain ⟨bs, h1, rfl⟩ := bits_bytes (n := 2 * k) (h.trans (by omega))
  obtain ⟨us, h2, h3⟩ := exists_units k bs h1
  exact ⟨us, h2, by rw [h3]⟩

theorem utf16_any (u : List (BitVec 16)) : ∃ s, Utf16Replaced u s :=
  ⟨_, utf16Decode_replaced u⟩

/-- The length of the platform specific part of an id. -/
def remoteLength (net : I32) (s : Byte) : Nat :=
  if s = 0 then 24
  else if s = 2 then 8 * 16 + (8 * (if 1 ≤ net.toInt then 16 else 8) + 64)
  else if s = 6 then 64 + 8 * 24
  else if s = 7 then 64 + 8 * (if net.toInt < 10 then 24 else 0)
  else 64

theorem remote_any {net : I32} {s : Byte} (h11 : s ≠ 11) (hs : s ∈ platforms) {i : Bits}
    (hi : i.length = remoteLength net s) : ∃ v, RemoteEnc net s v i := by
  simp only [platforms, List.mem_cons, List.not_mem_nil, or_false] at hs
  rcases hs with rfl | rfl | rfl | rfl | rfl | rfl | rfl | rfl
  · obtain ⟨x, rfl⟩ := bits_field (w := 24) hi
    refine ⟨.splitScreen (x.setWidth 32), .splitScreen ⟨?_, ?_⟩⟩
    · rw [BitVec.toNat_setWidth_of_le (by decide)]; exact x.isLt
    · rw [BitVec.toNat_setWidth_of_le (by decide)]; rfl
  · obtain ⟨x, rfl⟩ := bits_field (w := 64) hi
    exact ⟨_, .steam x⟩
  · obtain ⟨a, b, rfl, ha, hb⟩ := bits_parts (n := 8 * 16)
      (k := 8 * (if 1 ≤ net.toInt then 16 else 8) + 64) hi
    obtain ⟨b, c, rfl, hb, hc⟩ := bits_parts hb
    obtain ⟨raw, h1, rfl⟩ := bits_bytes ha
    obtain ⟨unk, h2, rfl⟩ := bits_bytes hb
    obtain ⟨x, rfl⟩ := bits_field (w := 64) hc
    obtain ⟨name, hn⟩ := cp1252_any (raw.takeWhile (· != 0))
    exact ⟨_, .playStation x h1 hn h2⟩
  · obtain ⟨x, rfl⟩ := bits_field (w := 64) hi
    exact ⟨_, .xbox x⟩
  · obtain ⟨x, rfl⟩ := bits_field (w := 64) hi
    exact ⟨_, .qq x⟩
  · obtain ⟨a, b, rfl, ha, hb⟩ := bits_parts (n := 64) (k := 8 * 24) hi
    obtain ⟨x, rfl⟩ := bits_field (w := 64) ha
    obtain ⟨unk, h2, rfl⟩ := bits_bytes hb
    exact ⟨_, .switch x h2⟩
  · obtain ⟨a, b, rfl, ha, hb⟩ := bits_parts (n := 64) (k := 8 * (if net.toInt < 10 then 24 else 0)) hi
    obtain ⟨x, rfl⟩ := bits_field (w := 64) ha
    obtain ⟨unk, h2, rfl⟩ := bits_bytes hb
    exact ⟨_, .psyNet x h2⟩
  · exact absurd rfl h11

/-- Texts that are answered with `e` are cut off. -/
def TextCuts (e : AttributeError) : Prop := ∀ i, TextFail e i → CutOff NetText i

/-- A text with a count in range can be completed. -/
theorem text_cuts {n : I32} (h1 : -512 ≤ n.toInt) (h2 : n.toInt ≤ 1024) :
    TextCuts (.tooBigString n) := by
  intro i h
  cases h with
  | range h => omega
  | @narrow _ i h0 _ h =>
    have hn : n.toInt = n.toNat := by
      rw [BitVec.toInt_eq_toNat_cond] at h0 ⊢
      split at h0 <;> split <;> omega
    refine cut_more (q := []) (cut_fixed (g := fun (x : List Byte) b => x.length = n.toNat ∧ b = bytes x)
      (K := 8 * n.toNat) (fun _ hj => bits_bytes hj) (by omega)) ?_
    rintro x b ⟨hx, rfl⟩
    obtain ⟨body, last, rfl⟩ : ∃ body last, x = body ++ [last] :=
      ⟨x.dropLast, x.getLast (by rintro rfl; simp at hx; omega), (List.dropLast_append_getLast _).symm⟩
    obtain ⟨s, hs⟩ := cp1252_any body
    rw [List.length_append, List.length_singleton] at hx
    refine ⟨s, .inr (.inl ⟨body, last, by omega, hs, ?_⟩)⟩
    rw [hx, BitVec.ofNat_toNat, BitVec.setWidth_eq, List.append_nil]
  | @wide _ i _ h0 h =>
    obtain ⟨k, hk⟩ : ∃ k : Nat, n.toInt = -(k : Int) := ⟨n.toInt.natAbs, by omega⟩
    have hk' : -(BitVec.ofNat 32 k) = n := by
      apply BitVec.eq_of_toInt_eq
      rw [BitVec.toInt_neg, BitVec.toInt_ofNat', Int.bmod_def, Int.bmod_def]
      omega
    refine cut_more (q := []) (cut_fixed (g := fun (x : List (BitVec 16)) b => x.length = k ∧
      b = bytes (x.flatMap fun u => le 2 u.toNat)) (K := 16 * k) (fun _ hj => bits_units hj) (by omega)) ?_
    rintro x b ⟨hx, rfl⟩
    obtain ⟨body, last, rfl⟩ : ∃ body last, x = body ++ [last] :=
      ⟨x.dropLast, x.getLast (by rintro rfl; simp at hx; omega), (List.dropLast_append_getLast _).symm⟩
    obtain ⟨s, hs⟩ := utf16_any body
    rw [List.length_append, List.length_singleton] at hx
    refine ⟨s, .inr (.inr ⟨body, last, by omega, hs, ?_⟩)⟩
    rw [hx, hk', List.append_nil]

theorem name_cuts {what : String} (h : what ≠ "text string") : TextCuts (.notEnoughDataFor what) := by
  intro i hi
  cases hi
  exact absurd rfl h

/-- The text of an id is what fails, or the id is too short. -/
theorem remote_short {net : I32} {s : Byte} {e : AttributeError} {i : Bits}
    (h : RemoteFail net s e i) (hu : ∀ t, e ≠ .unrecognizedRemoteId t) :
    (s = 11 ∧ TextFail e i) ∨ s ≠ 11 ∧ s ∈ platforms ∧ i.length < remoteLength net s := by
  cases h with
  | epic h => exact .inl ⟨rfl, h⟩
  | unknown => exact absurd rfl (hu _)
  | psName h => exact .inr ⟨by decide, by decide, by simp [remoteLength]; omega⟩
  | psUnknown _ h | psId _ h =>
    refine .inr ⟨by decide, by decide, ?_⟩
    unfold remoteLength
    rw [if_neg (by decide), if_pos rfl]
    split at h <;> split <;> omega
  | psyNetId h =>
    refine .inr ⟨by decide, by decide, ?_⟩
    simp [remoteLength]; omega
  | psyNetUnknown h0 _ h =>
    refine .inr ⟨by decide, by decide, ?_⟩
    unfold remoteLength
    rw [if_neg (by decide), if_neg (by decide), if_neg (by decide), if_pos rfl, if_pos h0]
    omega
  | splitScreen h | steam h | xbox h | qq h =>
    exact .inr ⟨by decide, by decide, by simpa [remoteLength] using h⟩
  | switchId h | switchUnknown _ h =>
    exact .inr ⟨by decide, by decide, by simp [remoteLength]; omega⟩

/-- A player id of a platform, after the platform number. -/
def IdRest (net : I32) (s : Byte) (v : RemoteId × Byte) (bs : Bits) : Prop :=
  ∃ r, RemoteEnc net s v.1 r ∧ bs = r ++ field 8 v.2

theorem id_cut {net : I32} {s : Byte} {e : AttributeError} {i : Bits}
    (h : IdFail net s e i) (hw : TextCuts e)
    (hr : ∀ t, e ≠ .unrecognizedRemoteId t) :
    CutOff (IdRest net s) i := by
  cases h with
  | remote h =>
    obtain ⟨rfl, h1⟩ | ⟨h1, h2, h3⟩ := remote_short h hr
    · have := cut_more (p := []) (q := field 8 0) (g' := IdRest net 11) (hw _ h1)
        (fun v b hv => ⟨(.epic v, 0), b, .epic hv, rfl⟩)
      exact this
    · have := cut_more (p := []) (q := field 8 0) (g' := IdRest net s)
        (cut_fixed (fun _ => remote_any h1 h2) h3) (fun v b hv => ⟨(v, 0), b, hv, rfl⟩)
      exact this
  | @localId v b i hv hi =>
    have := cut_more (p := b) (q := []) (g' := IdRest net s)
      (cut_fixed (g := fun x b => b = field 8 x) (fun _ h => bits_field h) hi)
      (fun x c hx => ⟨(v, x), b, hv, by rw [hx, List.append_nil]⟩)
    exact this

theorem uniqueId_cut {net : I32} {e : AttributeError} {i : Bits}
    (h : UniqueIdFail net e i) (hw : TextCuts e)
    (hr : ∀ t, e ≠ .unrecognizedRemoteId t)
    (hs : e ≠ .notEnoughDataFor "System id") : CutOff (UniqueIdEnc net) i := by
  cases h with
  | system => exact absurd rfl hs
  | @id s _ i h =>
    refine cut_more (q := []) (id_cut h hw hr) ?_
    rintro ⟨r, l⟩ b ⟨c, h1, rfl⟩
    exact ⟨⟨s, r, l⟩, c, h1, by rw [List.append_nil]⟩

theorem partyLeader_cut {c : Ctx} {e : AttributeError} {i : Bits}
    (h : PartyLeaderFail c.net e i) (hw : TextCuts e)
    (hr : ∀ t, e ≠ .unrecognizedRemoteId t)
    (hs : e ≠ .notEnoughDataFor "Party Leader") : CutOff (PartyLeaderEnc c) i := by
  cases h with
  | system => exact absurd rfl hs
  | @id s _ i h0 h =>
    refine cut_more (q := []) (id_cut h hw hr) ?_
    rintro ⟨r, l⟩ b ⟨c, h1, rfl⟩
    exact ⟨_, .inr ⟨⟨s, r, l⟩, rfl, h0, c, h1, by rw [List.append_nil]⟩⟩

/-- The end of a reservation. -/
def FlagsEnc (d : Ctx) (v : Bool × Bool × Option Byte) (bs : Bits) : Prop :=
  ∃ k, When (d.atLeast 868 12 0) (Narrow 6) v.2.2 k ∧ bs = [v.1] ++ ([v.2.1] ++ k)

theorem flags_any {d : Ctx} {i : Bits} (h : i.length = if d.atLeast 868 12 0 then 8 else 2) :
    ∃ v, FlagsEnc d v i := by
  match i, h with
  | [], h => split at h <;> cases h
  | [_], h => split at h <;> cases h
  | x :: y :: k, h =>
    by_cases hd : d.atLeast 868 12 0
    · rw [if_pos hd] at h
      simp only [List.length_cons] at h
      obtain ⟨z, rfl⟩ := bits_field (w := 6) (i := k) (by omega)
      refine ⟨(x, y, some (z.setWidth 8)), _, .inl ⟨hd, _, rfl, ?_, rfl⟩, ?_⟩
      · rw [BitVec.toNat_setWidth_of_le (by decide)]; exact z.isLt
      · rw [BitVec.toNat_setWidth_of_le (by decide)]; rfl
    · rw [if_neg hd] at h
      simp only [List.length_cons] at h
      obtain rfl := List.eq_nil_of_length_eq_zero (by omega : k.length = 0)
      exact ⟨(x, y, none), [], .inr ⟨hd, rfl, rfl⟩, rfl⟩

theorem flags_some (d : Ctx) : ∃ v b, FlagsEnc d v b := by
  obtain ⟨v, h⟩ := flags_any (d := d)
    (i := List.replicate (if d.atLeast 868 12 0 then 8 else 2) false) List.length_replicate
  exact ⟨v, _, h⟩

theorem reserved_some (u : UniqueId) : ∃ t s, ReservedName u t s := by
  by_cases h : u.systemId = 0
  · by_cases h' : u.remoteId = .splitScreen 0
    · exact ⟨_, _, .inr (.inr ⟨h, h', rfl, rfl⟩)⟩
    · exact ⟨_, _, .inr (.inl ⟨h, h', _, rfl, [], by simp, rfl, by simp, rfl⟩)⟩
  · exact ⟨_, _, .inl ⟨h, _, rfl, .inl ⟨rfl, rfl⟩⟩⟩

theorem reservation_of {d : Ctx} {k : BitVec 32} {n : Bits} {u : UniqueId} {b s e : Bits}
    {t : Option Str} {x : Bool × Bool × Option Byte} (h1 : Narrow 3 k n)
    (h2 : UniqueIdEnc d.net u b) (h3 : ReservedName u t s) (h4 : FlagsEnc d x e) :
    ∃ v, ReservationEnc d v (n ++ (b ++ (s ++ e))) := by
  obtain ⟨w, h4, rfl⟩ := h4
  exact ⟨⟨k, u, t, x.1, x.2.1, x.2.2⟩, n, b, s, w, h1, h2, h3, h4, rfl⟩

theorem uniqueId_some (net : I32) : UniqueIdEnc net ⟨1, .steam 0, 0⟩ (field 8 1 ++ (field 64 0 ++ field 8 0)) :=
  ⟨_, .steam 0, rfl⟩

theorem reservation_cut {d : Ctx} {e : AttributeError} {i : Bits}
    (h : ReservationFail d e i) (hw : TextCuts e)
    (hr : ∀ t, e ≠ .unrecognizedRemoteId t)
    (hs : e ≠ .notEnoughDataFor "System id") : CutOff (ReservationEnc d) i := by
  obtain ⟨x, e', he⟩ := flags_some d
  cases h with
  | number h =>
    have key : CutOff (fun (k : BitVec 32) b => Narrow 3 k b) i := by
      refine cut_fixed (K := 3) (fun j hj => ?_) h
      obtain ⟨z, rfl⟩ := bits_field hj
      refine ⟨z.setWidth 32, ?_, ?_⟩
      · rw [BitVec.toNat_setWidth_of_le (by decide)]; exact z.isLt
      · rw [BitVec.toNat_setWidth_of_le (by decide)]; rfl
    obtain ⟨t, s, hn⟩ := reserved_some ⟨1, .steam 0, 0⟩
    exact cut_more (p := []) key (fun k b hk => by
      obtain ⟨v, hv⟩ := reservation_of hk (uniqueId_some d.net) hn he
      exact ⟨v, hv⟩)
  | @id k n _ i hk h =>
    obtain ⟨u, b, hb, hu⟩ := uniqueId_cut h hw hr hs
    obtain ⟨t, s, hn⟩ := reserved_some u
    obtain ⟨v, hv⟩ := reservation_of hk hu hn he
    exact ⟨v, b ++ (s ++ e'), by simp [hb], by simpa only [List.append_assoc] using hv⟩
  | @text k n u b _ i hk hu h0 h =>
    obtain ⟨t, c, hc, ht⟩ := hw _ h
    obtain ⟨v, hv⟩ := reservation_of hk hu (.inl ⟨h0, t, rfl, ht⟩) he
    exact ⟨v, c ++ e', by simp [hc], by simpa only [List.append_assoc] using hv⟩
  | @latin1 k n u b i hk hu h0 h1 h =>
    obtain ⟨t, c, hc, ht⟩ := h
    obtain ⟨v, hv⟩ := reservation_of hk hu (.inr (.inl ⟨h0, h1, t, rfl, ht⟩)) he
    exact ⟨v, c ++ e', by simp [hc], by simpa only [List.append_assoc] using hv⟩
  | @flags k n u b t s i hk hu hn h1 h2 =>
    have : i.length < if d.atLeast 868 12 0 then 8 else 2 := by
      split
      · exact h1 ‹_›
      · exact h2 ‹_›
    obtain ⟨y, c, hc, hy⟩ := cut_fixed (g := FlagsEnc d) (fun _ => flags_any) this
    obtain ⟨v, hv⟩ := reservation_of hk hu hn hy
    exact ⟨v, c, hc, by simpa only [List.append_assoc] using hv⟩

theorem privateMatch_cut {e : AttributeError} {i : Bits}
    (h : PrivateMatchFail e i) (hw : TextCuts e) :
    CutOff PrivateMatchEnc i := by
  have hn : NetText [] (field 32 0) := .inl ⟨rfl, rfl⟩
  cases h with
  | mutators h =>
    exact cut_more (p := [])
      (q := field 32 0 ++ (field 32 0 ++ (field 32 0 ++ (field 32 0 ++ [false])))) (hw _ h) (fun t b ht =>
      ⟨⟨t, 0, 0, [], [], false⟩, b, _, _, ht, hn, hn, rfl⟩)
  | @gameName m b j _ i hm hj h =>
    obtain ⟨c, e, rfl, hc, he⟩ := bits_parts (n := 32) (k := 32) hj
    obtain ⟨x, rfl⟩ := bits_field hc
    obtain ⟨y, rfl⟩ := bits_field he
    have := cut_more (p := b ++ (field 32 x ++ field 32 y)) (q := field 32 0 ++ [false])
      (g' := PrivateMatchEnc) (hw _ h)
      (fun t b' ht => ⟨⟨m, x, y, t, [], false⟩, b, _, _, hm, ht, hn, by simp only [List.append_assoc]⟩)
    simpa only [List.append_assoc] using this
  | @password m b j g b' _ i hm hj hg h =>
    obtain ⟨c, e, rfl, hc, he⟩ := bits_parts (n := 32) (k := 32) hj
    obtain ⟨x, rfl⟩ := bits_field hc
    obtain ⟨y, rfl⟩ := bits_field he
    have := cut_more (p := b ++ (field 32 x ++ (field 32 y ++ b'))) (q := [false])
      (g' := PrivateMatchEnc) (hw _ h)
      (fun t b' ht => ⟨⟨m, x, y, g, t, false⟩, b, _, _, hm, hg, ht, by simp only [List.append_assoc]⟩)
    simpa only [List.append_assoc] using this
  | @numbers m b i hm hi =>
    refine cut_more (q := field 32 0 ++ (field 32 0 ++ [false]))
      (cut_fixed (g := fun (x : BitVec 32 × BitVec 32) c => c = field 32 x.1 ++ field 32 x.2) (K := 32 + 32) ?_ hi) ?_
    · intro j hj
      obtain ⟨a, b, rfl, ha, hb⟩ := bits_parts hj
      obtain ⟨x, rfl⟩ := bits_field ha
      obtain ⟨y, rfl⟩ := bits_field hb
      exact ⟨(x, y), rfl⟩
    · rintro ⟨x, y⟩ c rfl
      exact ⟨⟨m, x, y, [], [], false⟩, b, _, _, hm, hn, hn, by simp only [List.append_assoc]⟩
  | @flag m b j g b' p b'' hm hj hg hp =>
    obtain ⟨c, e, rfl, hc, he⟩ := bits_parts (n := 32) (k := 32) hj
    obtain ⟨x, rfl⟩ := bits_field hc
    obtain ⟨y, rfl⟩ := bits_field he
    exact ⟨⟨m, x, y, g, p, false⟩, [false], by simp, b, _, _, hm, hg, hp,
      by simp only [List.append_assoc]⟩

theorem repStatTitle_cut {e : AttributeError} {i : Bits}
    (h : RepStatTitleFail e i) (hw : TextCuts e) :
    CutOff RepStatTitleEnc i := by
  cases h with
  | empty =>
    exact ⟨⟨false, [], false, 0, 0⟩, _, by simp, field 32 0, .inl ⟨rfl, rfl⟩, rfl⟩
  | @name x _ i h =>
    have := cut_more (p := [x]) (q := [false] ++ (field 32 0 ++ field 32 0)) (g' := RepStatTitleEnc)
      (hw _ h) (fun t b ht => ⟨⟨x, t, false, 0, 0⟩, b, ht, rfl⟩)
    exact this
  | @rest x s b i hs hi =>
    have := cut_more (p := x :: b) (q := []) (g' := RepStatTitleEnc)
      (cut_fixed (g := fun (x : Bool × BitVec 32 × BitVec 32) c =>
        c = x.1 :: (field 32 x.2.1 ++ field 32 x.2.2)) (K := 65) ?_ hi) ?_
    · exact this
    · intro j hj
      match j, hj with
      | y :: j, hj =>
        rw [List.length_cons] at hj
        obtain ⟨a, b, rfl, ha, hb⟩ := bits_parts (i := j) (n := 32) (k := 32) (by omega)
        obtain ⟨u, rfl⟩ := bits_field ha
        obtain ⟨v, rfl⟩ := bits_field hb
        exact ⟨(y, u, v), rfl⟩
    · rintro ⟨y, u, v⟩ c rfl
      exact ⟨⟨x, s, y, u, v⟩, b, hs, by simp⟩

theorem vec_some (net : I32) : ∃ v b, Vec3f net v b := by
  refine ⟨_, _, ⟨0, 0, 0⟩, ⟨0, ?_, ?_, ?_, ?_, rfl⟩, rfl⟩
  · unfold sizeClasses; split <;> decide
  all_goals exact ⟨by decide, by decide⟩

theorem rigidBody_cut {d : Ctx} {i : Bits} (h : CutOff (RigidBodyHead d) i) :
    CutOff (RigidBodyEnc d) i := by
  obtain ⟨⟨s, l, q⟩, b, hb, x, y, h1, h2, h3⟩ := h
  obtain ⟨v, c, hv⟩ := vec_some d.net
  have key : ∃ w e, When (s = false) (Vec3f d.net) w e := by
    cases s
    · exact ⟨some v, c, .inl ⟨rfl, v, rfl, hv⟩⟩
    · exact ⟨none, [], .inr ⟨by simp, rfl, rfl⟩⟩
  obtain ⟨w, e, hw⟩ := key
  refine ⟨⟨s, l, q, w, w⟩, b ++ (e ++ e), by simp [hb], ?_⟩
  rw [← List.append_assoc, h3]
  exact ⟨x, y, e, e, h1, h2, hw, hw, by simp only [List.append_assoc]⟩

theorem cutError_cuts {e : AttributeError} (h : CutError e) : TextCuts e := by
  cases e with
  | notEnoughDataFor w => exact name_cuts (by rintro rfl; exact h (by decide))
  | tooBigString n => exact text_cuts h.1 h.2
  | unimplemented => exact h.elim
  | unrecognizedRemoteId => exact h.elim

theorem cutOff_map {α β : Type} {g : α → Bits → Prop} {g' : β → Bits → Prop} {i : Bits}
    (h : CutOff g i) (f : α → β) (hg : ∀ v b, g v b → g' (f v) b) : CutOff g' i := by
  obtain ⟨v, b, hb, hv⟩ := h
  exact ⟨f v, b, hb, hg v _ hv⟩

theorem cutError_cut {c : Ctx} {tag : AttributeTag} {e : AttributeError} {i : Bits}
    (h : AttrFails c tag e i) (he : CutError e) : CutOff (AttrEnc c tag) i := by
  have hw := cutError_cuts he
  have hr : ∀ t, e ≠ .unrecognizedRemoteId t := by rintro t rfl; exact he
  have hs : ∀ w ∈ vagueNames, e ≠ .notEnoughDataFor w := by rintro w hv rfl; exact he hv
  cases h with
  | plain _ h => exact h
  | rigidBody h => exact cutOff_map (rigidBody_cut h) .rigidBody fun _ _ => .rigidBody
  | unimplemented => exact he.elim
  | string h => exact cutOff_map (hw _ h) .string fun _ _ => .string
  | qWordString h0 h => exact cutOff_map (hw _ h) .string fun _ _ => .qWordString h0
  | uniqueId h =>
    exact cutOff_map (uniqueId_cut h hw hr (hs _ (by decide))) .uniqueId fun _ _ => .uniqueId
  | partyLeader h =>
    exact cutOff_map (partyLeader_cut h hw hr (hs _ (by decide))) .partyLeader fun _ _ => .partyLeader
  | reservation h =>
    exact cutOff_map (reservation_cut h hw hr (hs _ (by decide))) .reservation fun _ _ => .reservation
  | privateMatch h => exact cutOff_map (privateMatch_cut h hw) .privateMatch fun _ _ => .privateMatch
  | repStatTitle h => exact cutOff_map (repStatTitle_cut h hw) .repStatTitle fun _ _ => .repStatTitle
  | loadoutOnline => exact absurd rfl (hs _ (by decide))
  | loadoutsOnline => exact absurd rfl (hs _ (by decide))

/-! ### Errors that more data does not help -/

theorem text_final {e : AttributeError} {i : Bits} (h : TextFail e i) (he : FinalError e) (b : Bits) :
    TextFail e (i ++ b) := by
  cases h with
  | count => exact he.elim
  | range h => rw [List.append_assoc]; exact .range h
  | narrow h1 h2 | wide h1 h2 => simp only [FinalError] at he; omega

theorem id_final {net : I32} {s : Byte} {e : AttributeError} {i : Bits} (h : IdFail net s e i)
    (he : FinalError e) (b : Bits) : IdFail net s e (i ++ b) := by
  cases h with
  | localId => exact he.elim
  | remote h =>
    cases h with
    | epic h => exact .remote (.epic (text_final h he b))
    | unknown h => exact .remote (.unknown h)
    | _ => exact he.elim

theorem uniqueId_final {net : I32} {e : AttributeError} {i : Bits} (h : UniqueIdFail net e i)
    (he : FinalError e) (b : Bits) : UniqueIdFail net e (i ++ b) := by
  cases h with
  | system => exact he.elim
  | id h => rw [List.append_assoc]; exact .id (id_final h he b)

theorem finalError_stays {c : Ctx} {tag : AttributeTag} {e : AttributeError} {i : Bits}
    (h : AttrFails c tag e i) (he : FinalError e) (b : Bits) : AttrFails c tag e (i ++ b) := by
  cases h with
  | plain => exact he.elim
  | rigidBody => exact he.elim
  | loadoutOnline => exact he.elim
  | loadoutsOnline => exact he.elim
  | unimplemented => exact .unimplemented
  | string h => exact .string (text_final h he b)
  | qWordString h0 h => exact .qWordString h0 (text_final h he b)
  | uniqueId h => exact .uniqueId (uniqueId_final h he b)
  | partyLeader h =>
    cases h with
    | system => exact he.elim
    | id h1 h2 => rw [List.append_assoc]; exact .partyLeader (.id h1 (id_final h2 he b))
  | reservation h =>
    cases h with
    | number => exact he.elim
    | latin1 => exact he.elim
    | flags => exact he.elim
    | id h1 h2 => rw [List.append_assoc]; exact .reservation (.id h1 (uniqueId_final h2 he b))
    | text h1 h2 h3 h =>
      rw [List.append_assoc, List.append_assoc]
      exact .reservation (.text h1 h2 h3 (text_final h he b))
  | privateMatch h =>
    cases h with
    | numbers => exact he.elim
    | flag => exact he.elim
    | mutators h => exact .privateMatch (.mutators (text_final h he b))
    | gameName h1 h2 h =>
      rw [List.append_assoc, List.append_assoc]
      exact .privateMatch (.gameName h1 h2 (text_final h he b))
    | password h1 h2 h3 h =>
      rw [List.append_assoc, List.append_assoc, List.append_assoc]
      exact .privateMatch (.password h1 h2 h3 (text_final h he b))
  | repStatTitle h =>
    cases h with
    | empty => exact he.elim
    | rest => exact he.elim
    | name h => exact .repStatTitle (.name (text_final h he b))

end Boxcars
