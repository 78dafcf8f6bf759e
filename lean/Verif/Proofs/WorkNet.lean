import Verif.Spec.Work
import Verif.Proofs.FrameSpec
/-!
# Step counts of the network stream decoder
-/
namespace Boxcars.Work
open Boxcars

variable {ε ε' α β : Type}

/-- At least `j` bits are consumed by success; failures do not put bits back. -/
def Keeps (j : Nat) (m : BM ε α) : Prop := ∀ env r, r.Valid →
  (∀ a r', m env r = .ok a r' → r'.Valid ∧ r'.bits.length + j ≤ r.bits.length) ∧
  (∀ e r', m env r = .err e r' → r'.Valid ∧ r'.bits.length ≤ r.bits.length)

namespace Keeps

theorem mono {i j : Nat} {m : BM ε α} (h : Keeps j m) (hi : i ≤ j) : Keeps i m := fun env r hv =>
  ⟨fun a r' hm => by have := (h env r hv).1 a r' hm; exact ⟨this.1, by omega⟩, (h env r hv).2⟩

theorem ofSpec {m : BM ε α} {R : BRel α} (h : ∀ N, BSpec N m R) : Keeps 0 m := by
  intro env r hv
  have hg := (h r.bits.length).good env r hv (Nat.le_refl _)
  refine ⟨fun a r' hm => ?_, fun e r' hm => ?_⟩
  · rw [hm] at hg; exact ⟨hg.1, hg.2.length_le⟩
  · rw [hm] at hg; exact ⟨hg.1, hg.2.length_le⟩

theorem pure (a : α) : Keeps 0 (Pure.pure a : BM ε α) := fun env r hv =>
  ⟨fun b r' h => by cases h; exact ⟨hv, Nat.le_refl _⟩, fun e r' h => by cases h⟩

theorem fail (e : ε) (j : Nat) : Keeps j (BM.fail e : BM ε α) := fun env r hv =>
  ⟨fun b r' h => (by cases h), fun e r' h => by cases h; exact ⟨hv, Nat.le_refl _⟩⟩

theorem bind {i j : Nat} {m : BM ε α} {f : α → BM ε β} (h : Keeps i m) (h' : ∀ a, Keeps j (f a)) :
    Keeps (i + j) (m >>= f) := by
  intro env r hv
  show (∀ b r', BM.bind m f env r = .ok b r' → _) ∧ (∀ e r', BM.bind m f env r = .err e r' → _)
  unfold BM.bind
  cases hm : m env r with
  | ok a r1 =>
    have h1 := (h env r hv).1 a r1 hm
    refine ⟨fun b r' hb => ?_, fun e r' hb => ?_⟩
    · have := (h' a env r1 h1.1).1 b r' hb; exact ⟨this.1, by omega⟩
    · have := (h' a env r1 h1.1).2 e r' hb; exact ⟨this.1, by omega⟩
  | err e r1 =>
    have h1 := (h env r hv).2 e r1 hm
    exact ⟨fun b r' hb => (by cases hb), fun e' r' hb => by cases hb; exact h1⟩
  | fault x => exact ⟨fun b r' hb => (by cases hb), fun e' r' hb => by cases hb⟩

theorem mapErr {j : Nat} {m : BM ε α} (f : ε → ε') (h : Keeps j m) : Keeps j (BM.mapErr f m) := by
  intro env r hv
  unfold BM.mapErr
  cases hm : m env r with
  | ok a r1 =>
    exact ⟨fun b r' hb => (by cases hb; exact (h env r hv).1 a r1 hm), fun e r' hb => by cases hb⟩
  | err e r1 =>
    exact ⟨fun b r' hb => (by cases hb), fun e' r' hb => by cases hb; exact (h env r hv).2 e r1 hm⟩
  | fault x => exact ⟨fun b r' hb => (by cases hb), fun e' r' hb => by cases hb⟩

theorem okOr {j : Nat} {m : BM Unit α} (e : ε) (h : Keeps j m) : Keeps j (BM.okOr e m) := h.mapErr _

theorem attempt {j : Nat} {m : BM Unit α} (h : Keeps j m) : Keeps 0 (BM.attempt (ε := ε) m) := by
  intro env r hv
  unfold BM.attempt
  cases hm : m env r with
  | ok a r1 =>
    refine ⟨fun b r' hb => ?_, fun e r' hb => by cases hb⟩
    cases hb
    have := (h env r hv).1 a r1 hm
    exact ⟨this.1, by omega⟩
  | err e r1 =>
    exact ⟨fun b r' hb => (by cases hb; exact (h env r hv).2 e r1 hm), fun e' r' hb => by cases hb⟩
  | fault x => exact ⟨fun b r' hb => (by cases hb), fun e' r' hb => by cases hb⟩

theorem readBits (n : Nat) : Keeps n (Boxcars.readBits n) := by
  intro env r hv
  unfold Boxcars.readBits
  split
  · refine ⟨fun a r' h => ?_, fun e r' h => by cases h⟩
    cases h
    have := env.afterRead_le r.bits.length r.look n (by assumption)
    refine ⟨⟨?_, ?_⟩, ?_⟩ <;> simp only [List.length_drop] <;> omega
  · exact ⟨fun b r' hb => (by cases hb), fun e' r' hb => by cases hb; exact ⟨hv, Nat.le_refl _⟩⟩

theorem readBit : Keeps 1 Boxcars.readBit := (readBits 1).bind (j := 0) fun _ => pure _
theorem readU8 : Keeps 8 Boxcars.readU8 := (readBits 8).bind (j := 0) fun _ => pure _
theorem readU32 : Keeps 32 Boxcars.readU32 := (readBits 32).bind (j := 0) fun _ => pure _

theorem refill : Keeps 0 (Boxcars.refill (ε := ε)) := by
  intro env r hv
  obtain ⟨look, h1, h2, h3, h4⟩ := refill_run (ε := ε) env r hv
  rw [h4]
  exact ⟨fun b r' hb => (by cases hb; exact ⟨⟨h3, h2⟩, Nat.le_refl _⟩), fun e' r' hb => by cases hb⟩

theorem lookaheadBits : Keeps 0 (Boxcars.lookaheadBits (ε := ε)) := fun env r hv =>
  ⟨fun b r' h => by cases h; exact ⟨hv, Nat.le_refl _⟩, fun e r' h => by cases h⟩

theorem isEmpty : Keeps 0 (FrameDecoder.isEmptyBM (ε := ε)) := fun env r hv =>
  ⟨fun b r' h => by cases h; exact ⟨hv, Nat.le_refl _⟩, fun e r' h => by cases h⟩

theorem getIndex (xs : List α) (id : I32) : Keeps 0 (Boxcars.getIndex (ε := ε) xs id) := fun env r hv =>
  ⟨fun b r' h => by cases h; exact ⟨hv, Nat.le_refl _⟩, fun e r' h => by cases h⟩

theorem reserve (n : Nat) : Keeps 0 (FrameDecoder.reserveFrames n) := by
  intro env r hv
  unfold FrameDecoder.reserveFrames
  split
  · exact ⟨fun b r' hb => (by cases hb), fun e' r' hb => by cases hb⟩
  · exact ⟨fun b r' h => (by cases h; exact ⟨hv, Nat.le_refl _⟩), fun e r' h => by cases h⟩

theorem debugAssert (c : Bool) : Keeps 0 (BM.debugAssert (ε := ε) c) := by
  intro env r hv
  unfold BM.debugAssert
  split
  · exact ⟨fun b r' hb => (by cases hb), fun e' r' hb => by cases hb⟩
  · exact ⟨fun b r' h => (by cases h; exact ⟨hv, Nat.le_refl _⟩), fun e r' h => by cases h⟩

theorem peekAndConsume (n : Nat) : Keeps 0 (Boxcars.peekAndConsume (ε := ε) n) := by
  intro env r hv
  unfold Boxcars.peekAndConsume
  have h1 := hv.1
  have h2 := hv.2
  split
  · refine ⟨fun a r' h => ?_, fun e r' h => by cases h⟩
    cases h
    refine ⟨⟨?_, ?_⟩, ?_⟩ <;> simp only [List.length_drop] <;> omega
  · exact ⟨fun b r' hb => (by cases hb), fun e' r' hb => by cases hb⟩

theorem peekMax (b m : Nat) : Keeps 0 (peekBitsMaxComputed (ε := ε) b m) := by
  unfold peekBitsMaxComputed
  refine (debugAssert _).bind (j := 0) fun _ => (peekAndConsume _).bind (j := 0) fun data => ?_
  dsimp only
  split
  · exact pure _
  · refine (peekAndConsume _).bind (j := 0) fun x => ?_
    split <;> exact pure _

theorem product (d : AttrDecoder) (hp : d.product.version = d.version) : Keeps 1 d.decodeProduct := by
  unfold AttrDecoder.decodeProduct
  exact readBit.bind (j := 0) fun _ => (readU32.mono (Nat.zero_le _)).bind (j := 0) fun obj =>
    (ofSpec fun N => productValue_spec d hp obj).bind (j := 0) fun _ => pure _

theorem newActor (d : FrameDecoder) (id : ActorId) : Keeps 0 (d.parseNewActor id) := by
  have tail (nm : Option I32) : Keeps 0 (do
      let _ ← BM.okOr (.notEnoughDataFor "New Actor") Boxcars.readBit
      let objectId ← BM.okOr (.notEnoughDataFor "New Actor") Boxcars.readU32
      let spawn ← Boxcars.getIndex d.spawns objectId
      match spawn with
      | none => BM.fail (FrameError.objectIdOutOfRange objectId)
      | some spawn => do
        let traj ← BM.okOr (.notEnoughDataFor "New Actor")
          (Trajectory.fromSpawn spawn d.version.netVersion)
        Pure.pure (⟨id, nm, objectId, traj⟩ : NewActor)) := by
    refine ((readBit.okOr _).mono (Nat.zero_le _)).bind (j := 0)
      fun _ => ((readU32.okOr _).mono (Nat.zero_le _)).bind (j := 0) fun obj =>
        (getIndex _ _).bind (j := 0) fun sp => ?_
    cases sp with
    | none => exact fail _ _
    | some s =>
      exact ((ofSpec fun N => BSpec.spawn d.version.netVersion s).okOr _).bind (j := 0) fun _ => pure _
  unfold FrameDecoder.parseNewActor
  dsimp only
  split
  · exact ((readU32.okOr _).mono (Nat.zero_le _)).bind (j := 0) fun x => tail (some x)
  · exact tail none

end Keeps

/-! ## Counted decoders -/

/-- `mt` computes what `m` computes; success costs at most twelve steps per bit consumed plus
`k`, failure twelve steps per bit plus `K`. -/
structure BMeas (mt : BT ε α) (m : BM ε α) (k K : Int) : Prop where
  erase : ∀ env r, (mt env r).1 = m env r
  ok : ∀ env r a r', r.Valid → m env r = .ok a r' → r'.Valid ∧
    ((mt env r).2 : Int) + 12 * r'.bits.length ≤ 12 * r.bits.length + k
  err : ∀ env r e r', r.Valid → m env r = .err e r' →
    ((mt env r).2 : Int) + 12 * r'.bits.length ≤ 12 * r.bits.length + K

namespace BMeas

theorem mono {mt : BT ε α} {m : BM ε α} {k K k' K' : Int} (h : BMeas mt m k K) (hk : k ≤ k')
    (hK : K ≤ K') : BMeas mt m k' K' where
  erase := h.erase
  ok env r a r' hv hm := by have := h.ok env r a r' hv hm; exact ⟨this.1, by omega⟩
  err env r e r' hv hm := by have := h.err env r e r' hv hm; omega

theorem pure (a : α) (K : Int) : BMeas (Pure.pure a : BT ε α) (Pure.pure a : BM ε α) 0 K where
  erase _ _ := rfl
  ok env r b r' hv h := by
    cases h
    refine ⟨hv, ?_⟩
    show ((0 : Nat) : Int) + _ ≤ _
    omega
  err env r e r' hv h := by cases h

theorem fail (e : ε) {k K : Int} (hK : 0 ≤ K) :
    BMeas (BT.free (BM.fail e) : BT ε α) (BM.fail e) k K where
  erase _ _ := rfl
  ok env r b r' hv h := by cases h
  err env r e r' hv h := by
    cases h
    show ((0 : Nat) : Int) + _ ≤ _
    omega

theorem faulty (f : Fault) (k K : Int) :
    BMeas (BT.free (BM.faulty f) : BT ε α) (BM.faulty f) k K where
  erase _ _ := rfl
  ok env r b r' hv h := by cases h
  err env r e r' hv h := by cases h

theorem free {m : BM ε α} (h : Keeps 0 m) : BMeas (BT.free m) m 0 0 where
  erase _ _ := rfl
  ok env r a r' hv hm := by
    have := (h env r hv).1 a r' hm
    refine ⟨this.1, ?_⟩
    show ((0 : Nat) : Int) + _ ≤ _
    omega
  err env r a r' hv hm := by
    have := (h env r hv).2 a r' hm
    show ((0 : Nat) : Int) + _ ≤ _
    omega

theorem read {m : BM ε α} {j : Nat} (h : Keeps j m) : BMeas (BT.read m) m (1 - 11 * j) 1 where
  erase _ _ := rfl
  ok env r a r' hv hm := by
    have := (h env r hv).1 a r' hm
    refine ⟨this.1, ?_⟩
    unfold BT.read BT.left
    simp only [hm]
    omega
  err env r a r' hv hm := by
    have := (h env r hv).2 a r' hm
    unfold BT.read BT.left
    simp only [hm]
    omega

theorem tick {mt : BT ε α} {m : BM ε α} {k K : Int} (h : BMeas mt m k K) :
    BMeas (BT.tick mt) m (k + 1) (K + 1) where
  erase := h.erase
  ok env r a r' hv hm := by
    have := h.ok env r a r' hv hm
    refine ⟨this.1, ?_⟩
    unfold BT.tick
    simp only
    omega
  err env r e r' hv hm := by
    have := h.err env r e r' hv hm
    unfold BT.tick
    simp only
    omega

theorem bind {mt : BT ε α} {m : BM ε α} {ft : α → BT ε β} {f : α → BM ε β} {k K k' K' L : Int}
    (h : BMeas mt m k K) (h' : ∀ a, BMeas (ft a) (f a) k' K') (hK : K ≤ L) (hK' : k + K' ≤ L) :
    BMeas (mt >>= ft) (m >>= f) (k + k') L where
  erase env r := by
    show (BT.bind mt ft env r).1 = BM.bind m f env r
    unfold BT.bind BM.bind
    have e := h.erase env r
    rcases hm : mt env r with ⟨x, t⟩
    rw [hm] at e
    rw [← e]
    cases x with
    | ok a r1 => exact (h' a).erase env r1
    | err e r1 => rfl
    | fault x => rfl
  ok env r b r' hv hb := by
    change BM.bind m f env r = _ at hb
    show _ ∧ ((BT.bind mt ft env r).2 : Int) + _ ≤ _
    unfold BM.bind at hb
    unfold BT.bind
    have e := h.erase env r
    cases hm : m env r with
    | ok a r1 =>
      have h1 := h.ok env r a r1 hv hm
      rcases ht : mt env r with ⟨x, t⟩
      rw [ht] at e h1
      simp only at e h1
      rw [hm] at e
      subst e
      rw [hm] at hb
      have h2 := (h' a).ok env r1 b r' h1.1 hb
      refine ⟨h2.1, ?_⟩
      simp only
      omega
    | err e r1 => rw [hm] at hb; cases hb
    | fault x => rw [hm] at hb; cases hb
  err env r b r' hv hb := by
    change BM.bind m f env r = _ at hb
    show ((BT.bind mt ft env r).2 : Int) + _ ≤ _
    unfold BM.bind at hb
    unfold BT.bind
    have e := h.erase env r
    cases hm : m env r with
    | ok a r1 =>
      have h1 := h.ok env r a r1 hv hm
      rcases ht : mt env r with ⟨x, t⟩
      rw [ht] at e h1
      simp only at e h1
      rw [hm] at e
      subst e
      rw [hm] at hb
      have h2 := (h' a).err env r1 b r' h1.1 hb
      simp only
      omega
    | err e' r1 =>
      have h1 := h.err env r e' r1 hv hm
      rcases ht : mt env r with ⟨x, t⟩
      rw [ht] at e h1
      simp only at e h1
      rw [hm] at e
      subst e
      rw [hm] at hb
      cases hb
      simp only
      omega
    | fault x => rw [hm] at hb; cases hb

theorem mapErr {mt : BT ε α} {m : BM ε α} {k K : Int} (g : ε → ε') (h : BMeas mt m k K) :
    BMeas (BT.mapErr g mt) (BM.mapErr g m) k K where
  erase env r := by
    unfold BT.mapErr BM.mapErr
    have e := h.erase env r
    rcases hm : mt env r with ⟨x, t⟩
    rw [hm] at e
    rw [← e]
    cases x <;> rfl
  ok env r b r' hv hb := by
    unfold BM.mapErr at hb
    unfold BT.mapErr
    have e := h.erase env r
    cases hm : m env r with
    | ok a r1 =>
      have h1 := h.ok env r a r1 hv hm
      rcases ht : mt env r with ⟨x, t⟩
      rw [ht] at e h1
      simp only at e h1
      rw [hm] at e hb
      subst e
      cases hb
      exact h1
    | err e r1 => rw [hm] at hb; cases hb
    | fault x => rw [hm] at hb; cases hb
  err env r b r' hv hb := by
    unfold BM.mapErr at hb
    unfold BT.mapErr
    have e := h.erase env r
    cases hm : m env r with
    | ok a r1 => rw [hm] at hb; cases hb
    | err e' r1 =>
      have h1 := h.err env r e' r1 hv hm
      rcases ht : mt env r with ⟨x, t⟩
      rw [ht] at e h1
      simp only at e h1
      rw [hm] at e hb
      subst e
      cases hb
      exact h1
    | fault x => rw [hm] at hb; cases hb

theorem replicate {ft : BT ε α} {f : BM ε α} {k K : Int} (h : BMeas ft f k K) (hk : k + 1 ≤ 0)
    (n : Nat) : BMeas (Work.replicateBM n ft) (Boxcars.replicateBM n f) 0 (max 0 (K + 1)) := by
  induction n with
  | zero => exact BMeas.pure _ _
  | succ n ih =>
    rw [Work.replicateBM, Boxcars.replicateBM]
    refine (BMeas.tick (k := k) (K := max 0 (K + 1) - 1) ?_).mono hk (by omega)
    refine (h.bind (fun a => ih.bind (L := max 0 (K + 1)) (fun l => BMeas.pure _ 0) (by omega)
      (by omega)) (L := max 0 (K + 1) - 1) ?_ ?_).mono (by omega) (Int.le_refl _) <;> omega

end BMeas

/-! ### Attributes with loops -/

theorem reservationName_meas (fuel : Nat) (acc : Str) :
    BMeas (Work.reservationName fuel acc) (Boxcars.reservationName fuel acc) 0 2 := by
  induction fuel generalizing acc with
  | zero => exact BMeas.faulty _ _ _
  | succ fuel ih =>
    rw [Work.reservationName, Boxcars.reservationName]
    split
    · refine (BMeas.tick (k := -87) (K := 1) ?_).mono (by omega) (by omega)
      refine ((BMeas.read (Keeps.readU8.okOr _)).bind (k' := 0) (K' := 2) (L := 1) (fun c => ?_)
        (by omega) (by omega)).mono (by omega) (by omega)
      split
      · exact BMeas.pure _ _
      · exact ih _
    · exact BMeas.pure _ _

theorem reservationTail_meas (d : AttrDecoder)
    (g : Bool → Bool → Option (BitVec 8) → Reservation) :
    BMeas (do
      let unknown1 ← BT.read (need "Reservation" Boxcars.readBit)
      let unknown2 ← BT.read (need "Reservation" Boxcars.readBit)
      let unknown3 ←
        if d.version.ge 868 12 0 then do
          let x ← BT.read (need "Reservation" (Boxcars.readBits 6))
          pure (some (BitVec.ofNat 8 x))
        else pure none
      pure (g unknown1 unknown2 unknown3))
    (do
      let unknown1 ← need "Reservation" Boxcars.readBit
      let unknown2 ← need "Reservation" Boxcars.readBit
      let unknown3 ←
        if d.version.ge 868 12 0 then do
          let x ← need "Reservation" (Boxcars.readBits 6)
          pure (some (BitVec.ofNat 8 x))
        else pure none
      pure (g unknown1 unknown2 unknown3)) 4 4 := by
  refine ((BMeas.read (Keeps.readBit.okOr _)).bind (fun u1 => (BMeas.read (Keeps.readBit.okOr _)).bind
    (k' := 4) (K' := 4) (L := 4) (fun u2 => ?_) (by omega) (by omega)) (L := 4) (by omega)
      (by omega)).mono (by omega) (by omega)
  dsimp only
  split
  · exact ((BMeas.read ((Keeps.readBits 6).okOr _)).bind (fun _ => BMeas.pure _ 0) (L := 1)
      (by omega) (by omega)).mono (by omega) (by omega)
  · exact (BMeas.pure _ 0).mono (by omega) (by omega)

theorem reservation_meas (d : AttrDecoder) : BMeas (Work.reservation d) d.reservation 0 2 := by
  unfold Work.reservation AttrDecoder.reservation
  refine ((BMeas.read ((Keeps.readBits 3).okOr _)).bind (L := 2) (k' := 10) (K' := 10) (fun number =>
    ((BMeas.read (Keeps.ofSpec fun N => uniqueId_spec _)).bind (L := 10) (k' := 5) (K' := 5)
      (fun unique => ?_) (by omega) (by omega)).mono (by omega) (by omega))
      (by omega) (by omega)).mono (by omega) (by omega)
  dsimp only
  have nm {x : Option Str} {ft : Option Str → BT AttributeError Reservation}
      {f : Option Str → BM AttributeError Reservation} (h : BMeas (ft x) (f x) 4 4) :
      BMeas ((Pure.pure x : BT AttributeError _) >>= ft) (Pure.pure x >>= f) 4 4 := by
    refine ⟨fun env r => h.erase env r, fun env r a r' hv hb => ?_, fun env r a r' hv hb => ?_⟩
    · have := h.ok env r a r' hv hb
      refine ⟨this.1, ?_⟩
      show ((0 + (ft x env r).2 : Nat) : Int) + _ ≤ _
      rw [Nat.zero_add]; exact this.2
    · have := h.err env r a r' hv hb
      show ((0 + (ft x env r).2 : Nat) : Int) + _ ≤ _
      rw [Nat.zero_add]; exact this
  split
  · refine ((BMeas.read (Keeps.ofSpec fun N => text_spec)).bind (k' := 4) (K' := 4) (L := 5)
      (fun s => nm ?_) (by omega) (by omega)).mono (by omega) (by omega)
    exact reservationTail_meas d _
  · split
    · refine ((reservationName_meas 256 []).bind (k' := 4) (K' := 4) (L := 5)
        (fun s => nm ?_) (by omega) (by omega)).mono (by omega) (by omega)
      exact reservationTail_meas d _
    · exact (nm (reservationTail_meas d _)).mono (by omega) (by omega)

theorem onlineLoadout_meas (d : AttrDecoder) (hp : d.product.version = d.version) :
    BMeas (Work.onlineLoadout d) d.onlineLoadout 0 1 := by
  unfold Work.onlineLoadout AttrDecoder.onlineLoadout
  refine ((BMeas.read Keeps.readU8).bind (fun size => BMeas.replicate (k := -80) (K := 2) ?_ (by omega) _)
    (L := 1) (by omega) (by omega)).mono (by omega) (by omega)
  exact ((BMeas.read Keeps.readU8).bind (fun n => (BMeas.read (Keeps.product d hp)).replicate
    (by omega) _) (L := 2) (by omega) (by omega)).mono (by omega) (by omega)

theorem loadoutsOnline_meas (d : AttrDecoder) (hp : d.product.version = d.version) :
    BMeas (Work.loadoutsOnline d) d.loadoutsOnline 0 1 := by
  unfold Work.loadoutsOnline AttrDecoder.loadoutsOnline
  exact ((onlineLoadout_meas d hp).bind (fun _ => (onlineLoadout_meas d hp).bind (fun _ =>
    (BMeas.read Keeps.readBit).bind (fun _ => (BMeas.read Keeps.readBit).bind (fun _ => BMeas.pure _ 0)
      (L := 1) (by omega) (by omega)) (L := 1) (by omega) (by omega)) (L := 1) (by omega) (by omega))
      (L := 1) (by omega) (by omega)).mono (by omega) (by omega)

theorem decode_meas (d : AttrDecoder) (hp : d.product.version = d.version) (tag : AttributeTag) :
    BMeas (Work.decode d tag) (d.decode tag) 1 2 := by
  have key : BMeas (BT.read (d.decode tag)) (d.decode tag) 1 2 :=
    (BMeas.read (Keeps.ofSpec fun N => decode_spec d hp tag)).mono (by omega) (by omega)
  cases tag
  case reservation =>
    exact ((reservation_meas d).bind (fun _ => BMeas.pure _ 0) (L := 2) (by omega)
      (by omega)).mono (by omega) (by omega)
  case loadoutOnline =>
    exact (((onlineLoadout_meas d hp).mapErr _).bind (fun _ => BMeas.pure _ 0) (L := 2) (by omega)
      (by omega)).mono (by omega) (by omega)
  case loadoutsOnline =>
    exact (((loadoutsOnline_meas d hp).mapErr _).bind (fun _ => BMeas.pure _ 0) (L := 2) (by omega)
      (by omega)).mono (by omega) (by omega)
  all_goals exact key

/-! ### Frames -/

theorem updateLoop_meas (ad : AttrDecoder) (hp : ad.product.version = ad.version) (id : ActorId)
    (obj : ObjectId) (c : CacheInfo) (fuel : Nat) (st : FrameSt) :
    BMeas (Work.updateLoop ad id obj c fuel st) (FrameDecoder.updateLoop ad id obj c fuel st) (-9) 5 := by
  induction fuel generalizing st with
  | zero => exact BMeas.faulty _ _ _
  | succ fuel ih =>
    rw [Work.updateLoop, FrameDecoder.updateLoop]
    refine (BMeas.tick (k := -10) (K := 4) ?_).mono (by omega) (by omega)
    refine ((BMeas.read (Keeps.readBit.okOr _)).bind (k' := 0) (K' := 10) (L := 4) (fun more => ?_)
      (by omega) (by omega)).mono (by omega) (by omega)
    cases more
    · exact BMeas.pure _ _
    · refine ((BMeas.free Keeps.refill).bind (fun _ => (BMeas.free Keeps.lookaheadBits).bind (k' := 0)
        (K' := 10) (L := 10) (fun look => ?_) (by omega) (by omega)) (L := 10) (by omega)
          (by omega)).mono (by omega) (by omega)
      split
      · exact BMeas.fail _ (by omega)
      · refine ((BMeas.read (Keeps.peekMax _ _)).bind (k' := -1) (K' := 8) (L := 9) (fun raw => ?_)
          (by omega) (by omega)).mono (by omega) (by omega)
        dsimp only
        cases c.attributes.get (BitVec.ofNat 32 raw) with
        | none => exact BMeas.fail _ (by omega)
        | some attr =>
          exact (((decode_meas ad hp attr.attr).mapErr _).bind (fun v => ih _) (L := 8) (by omega)
            (by omega)).mono (by omega) (by omega)

theorem actorLoop_meas (d : FrameDecoder) (ad : AttrDecoder) (hp : ad.product.version = ad.version)
    (fuel : Nat) (st : FrameSt) :
    BMeas (Work.actorLoop d ad fuel st) (FrameDecoder.actorLoop d ad fuel st) (-9) 5 := by
  induction fuel generalizing st with
  | zero => exact BMeas.faulty _ _ _
  | succ fuel ih =>
    rw [Work.actorLoop, FrameDecoder.actorLoop]
    refine (BMeas.tick (k := -10) (K := 4) ?_).mono (by omega) (by omega)
    refine ((BMeas.read (Keeps.readBit.okOr _)).bind (k' := 0) (K' := 10) (L := 4) (fun more => ?_)
      (by omega) (by omega)).mono (by omega) (by omega)
    cases more
    · exact BMeas.pure _ _
    · refine ((BMeas.free Keeps.refill).bind (fun _ => (BMeas.free Keeps.lookaheadBits).bind (k' := 0)
        (K' := 10) (L := 10) (fun look => ?_) (by omega) (by omega)) (L := 10) (by omega)
          (by omega)).mono (by omega) (by omega)
      split
      · exact BMeas.fail _ (by omega)
      · refine ((BMeas.read (Keeps.peekMax _ _)).bind (k' := -1) (K' := 8) (L := 9) (fun raw => ?_)
          (by omega) (by omega)).mono (by omega) (by omega)
        refine ((BMeas.read (Keeps.peekAndConsume 1)).bind (k' := -2) (K' := 6) (L := 8) (fun alive => ?_)
          (by omega) (by omega)).mono (by omega) (by omega)
        split
        · refine ((BMeas.read (Keeps.readBit.okOr _)).bind (k' := 8) (K' := 10) (L := 6)
            (fun isNew => ?_) (by omega) (by omega)).mono (by omega) (by omega)
          cases isNew
          · cases st.actors.get (BitVec.ofNat 32 raw) with
            | none => exact BMeas.fail _ (by omega)
            | some p =>
              exact ((updateLoop_meas ad hp _ p.1 p.2 (fuel + 1) st).bind (fun st => ih st) (L := 10)
                (by omega) (by omega)).mono (by omega) (by omega)
          · refine ((BMeas.read ((Keeps.newActor d _).mapErr _)).bind (fun actor =>
              (BMeas.free (Keeps.getIndex _ _)).bind (k' := 0) (K' := 5) (L := 8) (fun cache => ?_)
                (by omega) (by omega)) (L := 10) (by omega) (by omega)).mono (by omega) (by omega)
            rcases cache with _ | _ | cache
            · exact BMeas.fail _ (by omega)
            · exact BMeas.fail _ (by omega)
            · exact (ih _).mono (by omega) (by omega)
        · exact (ih _).mono (by omega) (by omega)
          
theorem frame_meas (d : FrameDecoder) (ad : AttrDecoder) (hp : ad.product.version = ad.version)
    (fuel : Nat) (actors : SegArray (ObjectId × CacheInfo)) :
    BMeas (Work.decodeFrame d ad fuel actors) (FrameDecoder.decodeFrame d ad fuel actors) (-350) 1 := by
  unfold Work.decodeFrame FrameDecoder.decodeFrame
  dsimp only
  refine ((BMeas.read (Keeps.readU32.okOr _)).bind (k' := 0) (K' := 5) (L := 1) (fun time => ?_)
    (by omega) (by omega)).mono (by omega) (by omega)
  split
  · exact BMeas.fail _ (by omega)
  · refine ((BMeas.read (Keeps.readU32.okOr _)).bind (k' := 0) (K' := 5) (L := 1) (fun delta => ?_)
      (by omega) (by omega)).mono (by omega) (by omega)
    split
    · exact BMeas.fail _ (by omega)
    · split
      · exact BMeas.pure _ _
      · exact ((actorLoop_meas d ad hp fuel _).bind (fun st => BMeas.pure _ 0) (L := 5) (by omega)
          (by omega)).mono (by omega) (by omega)

theorem framesLoop_meas (d : FrameDecoder) (ad : AttrDecoder) (hp : ad.product.version = ad.version)
    (bitFuel fuel : Nat) (frames : List Frame) (actors : SegArray (ObjectId × CacheInfo)) :
    BMeas (Work.framesLoop d ad bitFuel fuel frames actors)
      (FrameDecoder.framesLoop d ad bitFuel fuel frames actors) 1 2 := by
  induction fuel generalizing frames actors with
  | zero => exact BMeas.faulty _ _ _
  | succ fuel ih =>
    rw [Work.framesLoop, FrameDecoder.framesLoop]
    refine (BMeas.tick (k := 0) (K := 1) ?_).mono (by omega) (by omega)
    refine ((BMeas.free Keeps.isEmpty).bind (k' := 0) (K' := 1) (L := 1) (fun empty => ?_)
      (by omega) (by omega)).mono (by omega) (by omega)
    split
    · refine (((frame_meas d ad hp bitFuel actors).mapErr _).bind (k' := 1) (K' := 2) (L := 1)
        (fun res => ?_) (by omega) (by omega)).mono (by omega) (by omega)
      cases res with
      | none => exact (BMeas.pure _ 0).mono (by omega) (by omega)
      | some p => exact ih _ _
    · exact BMeas.pure _ _

/-- Decoding the frames takes at most twelve steps per bit and three more. -/
theorem decodeFrames_meas (d : FrameDecoder) (hp : d.attrDecoder.product.version = d.attrDecoder.version) :
    BMeas (Work.decodeFrames d) d.decodeFrames 2 3 := by
  unfold Work.decodeFrames FrameDecoder.decodeFrames
  refine ((BMeas.free (Keeps.reserve _)).bind (fun _ => (framesLoop_meas d _ hp _ _ _ _).bind (k' := 1)
    (K' := 1) (L := 2) (fun frames => ?_) (by omega) (by omega)) (L := 3) (by omega)
      (by omega)).mono (by omega) (by omega)
  split
  · exact ((BMeas.read Keeps.readU32.attempt).bind (fun _ => BMeas.pure _ 0) (L := 1) (by omega)
      (by omega)).mono (by omega) (by omega)
  · exact (BMeas.pure _ 0).mono (by omega) (by omega)

end Boxcars.Work
