import Verif.Proofs.WorkParse
/-!
# Steps for a file whose network data is not decoded
-/
namespace Boxcars.Work
open Boxcars Spec

variable {α β γ : Type}

theorem pt_assoc (m : PT α) (f : α → PT β) (g : β → PT γ) :
    (m >>= f) >>= g = m >>= fun a => f a >>= g := by
  funext env s
  show PT.bind (PT.bind m f) g env s = PT.bind m (fun a => PT.bind (f a) g) env s
  unfold PT.bind
  rcases m env s with ⟨r, t⟩
  cases r with
  | ok a s1 =>
    simp only
    rcases f a env s1 with ⟨r', t'⟩
    cases r' with
    | ok b s2 => simp only [Nat.add_assoc]
    | err e s2 => rfl
    | fault x => rfl
  | err e s1 => rfl
  | fault x => rfl

theorem pt_pure (a : α) (f : α → PT β) : (Pure.pure a : PT α) >>= f = f a := by
  funext env s
  show PT.bind (PT.pure a) f env s = _
  unfold PT.bind PT.pure
  simp only [Nat.zero_add]

/-- A section with its number of steps. -/
def section_ (check : CrcCheck) (n1 n2 n3 n4 : String) (m : PT α) : PT (I32 × U32 × α) :=
  PT.read (takeI32 n1) >>= fun size => PT.read (takeI32 n2) >>= fun crc =>
    PT.free (P.usize size) >>= fun n => PT.read (P.wrap n3 (viewData n)) >>= fun data =>
      crcSection check data crc n4 m >>= fun a => Pure.pure (size, crc, a)

/-- Both sections with their number of steps. -/
def front (check : CrcCheck) : PT Sections :=
  section_ check "header size" "header crc" "header data" "header" parseHeader >>= fun h =>
    section_ check "content size" "content crc" "content data" "body" parseBody >>= fun b =>
      Pure.pure ⟨h.1, h.2.1, h.2.2, b.1, b.2.1, b.2.2⟩

theorem parserParse_eq (check : CrcCheck) (np : NetworkParse) :
    parserParse check np = front check >>= fun x =>
      networkStep np x.header x.body >>= fun net => Pure.pure (x.replay net) := by
  unfold front section_
  simp only [pt_assoc, pt_pure]
  rfl

/-- `mt` computes what `m` computes; success costs at most three steps per byte consumed plus `k`,
but nothing for `w` of the bytes. -/
structure Skim (mt : PT α) (m : P α) (w : α → Nat) (k : Int) : Prop where
  erase : ∀ env s, (mt env s).1 = m env s
  ok : ∀ env s a s', m env s = .ok a s' →
    ((mt env s).2 : Int) + 3 * s'.data.length + 3 * w a ≤ 3 * s.data.length + k

theorem Meas.skim {mt : PT α} {m : P α} {k K : Int} (h : Meas mt m k K) :
    Skim mt m (fun _ => 0) k where
  erase := h.erase
  ok env s a s' hm := by have := h.ok env s a s' hm; omega

theorem Skim.bind {mt : PT α} {m : P α} {ft : α → PT β} {f : α → P β} {k k' : Int} {w : α → Nat}
    {v : α → β → Nat} {u : β → Nat} (h : Skim mt m w k) (h' : ∀ a, Skim (ft a) (f a) (v a) k')
    (hu : ∀ a b, u b ≤ w a + v a b) : Skim (mt >>= ft) (m >>= f) u (k + k') where
  erase env s := by
    show (PT.bind mt ft env s).1 = P.bind m f env s
    unfold PT.bind P.bind
    have e := h.erase env s
    rcases hm : mt env s with ⟨r, t⟩
    rw [hm] at e
    rw [← e]
    cases r with
    | ok a s1 => exact (h' a).erase env s1
    | err e s1 => rfl
    | fault x => rfl
  ok env s b s' hb := by
    change P.bind m f env s = _ at hb
    show ((PT.bind mt ft env s).2 : Int) + _ + _ ≤ _
    unfold P.bind at hb
    unfold PT.bind
    have e := h.erase env s
    cases hm : m env s with
    | ok a s1 =>
      have h1 := h.ok env s a s1 hm
      rcases ht : mt env s with ⟨r, t⟩
      rw [ht] at e h1
      simp only at e h1
      rw [hm] at e
      subst e
      rw [hm] at hb
      have h2 := (h' a).ok env s1 b s' hb
      have := hu a b
      simp only
      omega
    | err e s1 => rw [hm] at hb; cases hb
    | fault x => rw [hm] at hb; cases hb

theorem Skim.next {mt : PT α} {m : P α} {ft : α → PT β} {f : α → P β} {k k' K : Int} {u : β → Nat}
    (h : Meas mt m k K) (h' : ∀ a, Skim (ft a) (f a) u k') : Skim (mt >>= ft) (m >>= f) u (k + k') :=
  h.skim.bind (v := fun _ => u) h' fun _ _ => by omega

theorem Skim.pure (a : α) (w : α → Nat) (hw : w a = 0) :
    Skim (Pure.pure a : PT α) (Pure.pure a : P α) w 0 where
  erase _ _ := rfl
  ok env s b s' h := by
    cases h
    show ((0 : Nat) : Int) + _ + _ ≤ _
    omega

theorem Skim.mono {mt : PT α} {m : P α} {w w' : α → Nat} {k k' : Int} (h : Skim mt m w k)
    (hk : k ≤ k') (hw : ∀ a, w' a ≤ w a) : Skim mt m w' k' where
  erase := h.erase
  ok env s a s' hm := by have := h.ok env s a s' hm; have := hw a; omega

/-- Bytes that are split off cost one step. -/
theorem Skim.takeData (sec : String) (n : Nat) :
    Skim (PT.tick (PT.free (P.wrap sec (takeData n)))) (P.wrap sec (takeData n)) List.length 1 where
  erase _ _ := rfl
  ok env s a s' hm := by
    show (((0 : Nat) + 1 : Nat) : Int) + _ + _ ≤ _
    unfold P.wrap Boxcars.takeData at hm
    by_cases hn : n ≤ s.data.length
    · rw [if_pos hn] at hm
      cases hc : addCol env s.col n with
      | some c =>
        rw [hc] at hm
        cases hm
        simp only [List.length_take, List.length_drop]
        omega
      | none => rw [hc] at hm; cases hm
    · rw [if_neg hn] at hm
      cases hm

/-- The body, without its network data. -/
theorem body_skim : Skim Work.parseBody Boxcars.parseBody (fun b => b.networkData.length) 1 := by
  unfold Work.parseBody Boxcars.parseBody
  refine (Skim.next (textList_meas.wrap _) fun _ => Skim.next (keyframe_meas.wrap _) fun _ =>
    Skim.next (Meas.read (Eats.takeI32 _)) fun size => Skim.next (Meas.free (Eats.usize size)) fun n =>
      (Skim.takeData _ n).bind (v := fun d (b : ReplayBody) => b.networkData.length - d.length)
        (u := fun b : ReplayBody => b.networkData.length) (fun d =>
        Skim.next (debuginfo_meas.wrap _) fun _ => Skim.next (tickmarks_meas.wrap _) fun _ =>
          Skim.next (textList_meas.wrap _) fun _ => Skim.next (textList_meas.wrap _) fun _ =>
            Skim.next (textList_meas.wrap _) fun _ => Skim.next (classindex_meas.wrap _) fun _ =>
              Skim.next (classcache_meas.wrap _) fun _ => Skim.pure _
                (fun b : ReplayBody => b.networkData.length - d.length) (Nat.sub_self _))
        (fun a b => by omega)).mono (by omega) fun _ => Nat.le_refl _

theorem section_skim {mt : PT α} {m : P α} {w : α → Nat} {k : Int} {check : CrcCheck}
    (hc : check ≠ .always) (n1 n2 n3 n4 : String) (h : Skim mt m w k) :
    Skim (Work.section_ check n1 n2 n3 n4 mt) (Boxcars.section_ check n1 n2 n3 n4 m)
      (fun x => w x.2.2) (k + 1) := by
  unfold Work.section_ Boxcars.section_
  have crc : ∀ data c, Skim (Work.crcSection check data c n4 mt)
      (Boxcars.crcSection check data c n4 m) w k := by
    intro data c
    have e : (fun env s => (mt env s).1) = m := by funext env s; exact h.erase env s
    refine ⟨fun env s => ?_, fun env s a s' ha => ?_⟩
    · unfold Work.crcSection
      rw [e]
    · have hm : m env s = .ok a s' := by
        unfold Boxcars.crcSection at ha
        cases hm : m env s with
        | ok b s1 =>
          rw [hm] at ha
          cases check with
          | always => exact absurd rfl hc
          | never => exact ha
          | onError => exact ha
        | err x s1 =>
          rw [hm] at ha
          cases check with
          | always => exact absurd rfl hc
          | never => cases ha
          | onError => simp only at ha; split at ha <;> cases ha
        | fault x => rw [hm] at ha; cases check <;> cases ha
      have h1 := h.ok env s a s' hm
      unfold Work.crcSection
      simp only
      rw [h.erase env s, hm]
      cases check with
      | always => exact absurd rfl hc
      | never => simp only; omega
      | onError => simp only; omega
  refine (Skim.next (Meas.read (Eats.takeI32 _)) fun size => Skim.next (Meas.read (Eats.takeI32 _))
    fun c => Skim.next (Meas.free (Eats.usize size)) fun n =>
      Skim.next (Meas.read ((Eats.viewData n).wrap _)) fun data => (crc data c).bind
        (v := fun a (x : I32 × U32 × α) => w x.2.2 - w a) (u := fun x : I32 × U32 × α => w x.2.2)
        (fun a => Skim.pure _ (fun x : I32 × U32 × α => w x.2.2 - w a) (Nat.sub_self _))
        (fun a b => by omega)).mono (by omega) fun _ => Nat.le_refl _

theorem front_skim {check : CrcCheck} (hc : check ≠ .always) :
    Skim (Work.front check) (Boxcars.front check) (fun x => x.body.networkData.length) 4 := by
  unfold Work.front Boxcars.front
  exact ((section_skim hc _ _ _ _ header_meas.skim).bind (v := fun _ (x : Sections) => x.body.networkData.length)
    (fun h => (section_skim hc _ _ _ _ body_skim).bind (v := fun b (x : Sections) => x.body.networkData.length -
      b.2.2.networkData.length) (u := fun x : Sections => x.body.networkData.length)
      (fun b => Skim.pure _ (fun x : Sections => x.body.networkData.length - b.2.2.networkData.length)
        (Nat.sub_self _)) (fun a b => by omega)) (fun a b => by omega)).mono (by omega)
    fun _ => Nat.le_refl _

/-! ## A lower bound for checksums -/

/-- `mt` computes what `m` computes, and success costs at least `w`. -/
structure Least (env : Env) (mt : PT α) (m : P α) (w : α → Nat) : Prop where
  erase : ∀ s, (mt env s).1 = m env s
  ok : ∀ s a s', m env s = .ok a s' → w a ≤ (mt env s).2

variable {env : Env}

theorem Meas.least {mt : PT α} {m : P α} {k K : Int} (h : Meas mt m k K) :
    Least env mt m (fun _ => 0) := ⟨h.erase env, fun _ _ _ _ => Nat.zero_le _⟩

theorem Least.bind {mt : PT α} {m : P α} {ft : α → PT β} {f : α → P β} {w : α → Nat}
    {v : α → β → Nat} {u : β → Nat} (h : Least env mt m w)
    (h' : ∀ s a s', m env s = .ok a s' → Least env (ft a) (f a) (v a))
    (hu : ∀ a b, u b ≤ w a + v a b) : Least env (mt >>= ft) (m >>= f) u where
  erase s := by
    show (PT.bind mt ft env s).1 = P.bind m f env s
    unfold PT.bind P.bind
    have e := h.erase s
    cases hm : m env s with
    | ok a s1 =>
      rcases ht : mt env s with ⟨r, t⟩
      rw [ht, hm] at e
      simp only at e
      subst e
      exact (h' s a s1 hm).erase s1
    | err x s1 =>
      rcases ht : mt env s with ⟨r, t⟩
      rw [ht, hm] at e
      simp only at e
      subst e
      rfl
    | fault x =>
      rcases ht : mt env s with ⟨r, t⟩
      rw [ht, hm] at e
      simp only at e
      subst e
      rfl
  ok s b s' hb := by
    change P.bind m f env s = _ at hb
    show _ ≤ (PT.bind mt ft env s).2
    unfold P.bind at hb
    unfold PT.bind
    have e := h.erase s
    cases hm : m env s with
    | ok a s1 =>
      have h1 := h.ok s a s1 hm
      rcases ht : mt env s with ⟨r, t⟩
      rw [ht] at e h1
      simp only at e h1
      rw [hm] at e
      subst e
      rw [hm] at hb
      have h2 := (h' s a s1 hm).ok s1 b s' hb
      have := hu a b
      simp only
      omega
    | err e s1 => rw [hm] at hb; cases hb
    | fault x => rw [hm] at hb; cases hb

theorem Least.next {mt : PT α} {m : P α} {ft : α → PT β} {f : α → P β} {k K : Int} {u : β → Nat}
    (h : Meas mt m k K) (h' : ∀ s a s', m env s = .ok a s' → Least env (ft a) (f a) u) :
    Least env (mt >>= ft) (m >>= f) u :=
  h.least.bind (v := fun _ => u) h' fun _ _ => by omega

theorem section_least {mt : PT α} {m : P α} {k K : Int} (n1 n2 n3 n4 : String) (h : Meas mt m k K) :
    Least env (Work.section_ .always n1 n2 n3 n4 mt) (Boxcars.section_ .always n1 n2 n3 n4 m)
      (fun x => env.usizeOfI32 x.1) := by
  unfold Work.section_ Boxcars.section_
  refine Least.next (Meas.read (Eats.takeI32 _)) fun _ size _ _ => Least.next
    (Meas.read (Eats.takeI32 _)) fun _ c _ _ => Least.next (Meas.free (Eats.usize size))
    fun s n s' hn => Least.next (Meas.read ((Eats.viewData n).wrap _)) fun s1 data s2 hd =>
      Least.bind (w := fun _ => env.usizeOfI32 size)
        (v := fun _ x => env.usizeOfI32 x.1 - env.usizeOfI32 size) ?_
        (fun _ a _ _ => ⟨fun _ => rfl, fun _ b _ hb => by cases hb; simp⟩)
        (fun a b => by omega)
  have e : (fun env s => (mt env s).1) = m := by funext env s; exact h.erase env s
  refine ⟨fun s => ?_, fun s a s' ha => ?_⟩
  · unfold Work.crcSection
    rw [e]
  · have hn' : n = env.usizeOfI32 size := by
      unfold P.usize at hn
      cases hn
      rfl
    have hl : data.length = n := by
      unfold P.wrap viewData at hd
      by_cases hle : n ≤ s1.data.length
      · rw [if_pos hle] at hd
        cases hd
        rw [List.length_take]
        omega
      · rw [if_neg hle] at hd
        cases hd
    show env.usizeOfI32 size ≤ (mt env s).2 + _
    simp only
    omega

theorem front_least : Least env (Work.front .always) (Boxcars.front .always)
    (fun x => env.usizeOfI32 x.headerSize + env.usizeOfI32 x.contentSize) := by
  unfold Work.front Boxcars.front
  refine (section_least _ _ _ _ header_meas).bind
    (v := fun h (x : Sections) => env.usizeOfI32 x.headerSize + env.usizeOfI32 x.contentSize -
      env.usizeOfI32 h.1) (fun _ h _ _ => (section_least _ _ _ _ body_meas).bind
      (v := fun b (x : Sections) => env.usizeOfI32 x.headerSize + env.usizeOfI32 x.contentSize -
        env.usizeOfI32 h.1 - env.usizeOfI32 b.1)
      (fun _ b _ _ => ⟨fun _ => rfl, fun _ x _ hx => ?_⟩) (fun a b => by omega))
    (fun a b => by omega)
  cases hx
  show _ - _ - _ ≤ 0
  simp only
  omega

end Boxcars.Work
