import Verif.Model.Parser
import Verif.Proofs.Rdict
import Verif.Props.Crc
/-!
# The whole parser against the file grammar
-/
namespace Boxcars
open Spec

variable {N : Nat}

theorem viewData_spec (n : Nat) :
    PSpec N (viewData n) (fun a d d' => d' = d ∧ n ≤ d.length ∧ a = d.take n) where
  suffix a d d' _ h := by rw [h.1]; exact List.suffix_refl d
  noFault T env s hT hi hd f := by unfold viewData; split <;> simp
  okIff T env s hT hi hd a s' := by
    unfold viewData
    split
    · rename_i hn
      simp only [PRes.ok.injEq]
      constructor
      · rintro ⟨rfl, rfl⟩; exact ⟨⟨rfl, hn, rfl⟩, hi⟩
      · rintro ⟨⟨h1, _, rfl⟩, hi'⟩
        exact ⟨rfl, hi.ext hi' h1.symm⟩
    · rename_i hn
      simp only [reduceCtorEq, false_iff]
      rintro ⟨⟨_, h, _⟩, _⟩; exact hn h
  errInv T env s hT hi hd e s' h := by
    unfold viewData at h
    split at h
    · cases h
    · cases h; exact ⟨hi, List.suffix_refl _, trivial⟩
  agn T env env' s hT hT' hi hd he := rfl

theorem crcSection_spec {α : Type} {m : P α} {R : PRel α} (check : CrcCheck) (data : List Byte)
    (crc : U32) (sec : String) (h : PSpec N m R) :
    PSpec N (crcSection check data crc sec m)
      (fun a d d' => R a d d' ∧ (check = .always → Crc.crc data = crc)) where
  suffix a d d' hd hr := h.suffix a d d' hd hr.1
  noFault T env s hT hi hd f hx := by
    unfold crcSection at hx
    cases hm : m env s with
    | ok a s1 => rw [hm] at hx; cases check <;> simp only at hx <;> (try split at hx) <;> cases hx
    | err e s1 => rw [hm] at hx; cases check <;> simp only at hx <;> (try split at hx) <;> cases hx
    | fault y => exact h.noFault T env s hT hi hd y hm
  okIff T env s hT hi hd a s' := by
    rw [and_right_comm, ← h.okIff T env s hT hi hd]
    unfold crcSection
    rw [Props.calcCrc_eq_spec]
    cases m env s with
    | ok a1 s1 =>
      cases check with
      | always =>
        simp only
        split
        · rename_i hc
          simp only [reduceCtorEq, false_iff]
          rintro ⟨_, h⟩; exact hc (h trivial)
        · rename_i hc
          simp only [ne_eq, Decidable.not_not] at hc
          simp [hc]
      | never => simp
      | onError => simp
    | err e s1 => cases check <;> simp only <;> (try split) <;> simp
    | fault y => simp
  errInv T env s hT hi hd e s' hx := by
    unfold crcSection at hx
    cases hm : m env s with
    | ok a s1 =>
      rw [hm] at hx
      obtain ⟨hr, hi1⟩ := (h.okIff T env s hT hi hd a s1).1 hm
      cases check <;> simp only at hx <;> (try split at hx) <;> cases hx
      exact ⟨hi1, h.suffix a _ _ hd hr, trivial⟩
    | err e1 s1 =>
      rw [hm] at hx
      have := h.errInv T env s hT hi hd e1 s1 hm
      cases check <;> simp only at hx <;> (try split at hx) <;> cases hx
      · exact ⟨this.1, this.2.1, trivial⟩
      · exact this
      · exact this
      · exact this
      · exact this
    | fault y => rw [hm] at hx; cases hx
  agn T env env' s hT hT' hi hd he := by
    unfold crcSection
    rw [h.agn T env env' s hT hT' hi hd he]

/-- A section: size, checksum, view of the declared bytes, content. -/
def section_ {α : Type} (check : CrcCheck) (n1 n2 n3 n4 : String) (m : P α) :
    P (I32 × U32 × α) :=
  takeI32 n1 >>= fun size => takeI32 n2 >>= fun crc => P.usize size >>= fun n =>
    P.wrap n3 (viewData n) >>= fun data => crcSection check data crc n4 m >>= fun a =>
      Pure.pure (size, crc, a)

/-- Both sections. -/
def front (check : CrcCheck) : P Sections :=
  section_ check "header size" "header crc" "header data" "header" parseHeader >>= fun h =>
    section_ check "content size" "content crc" "content data" "body" parseBody >>= fun b =>
      Pure.pure ⟨h.1, h.2.1, h.2.2, b.1, b.2.1, b.2.2⟩

theorem P.bind_assoc {α β γ : Type} (m : P α) (f : α → P β) (g : β → P γ) :
    (m >>= f) >>= g = m >>= fun a => f a >>= g := by
  funext env s
  show P.bind (P.bind m f) g env s = P.bind m (fun a => P.bind (f a) g) env s
  unfold P.bind
  cases m env s <;> rfl

theorem P.pure_bind {α β : Type} (a : α) (f : α → P β) : (Pure.pure a : P α) >>= f = f a := rfl

theorem parserParse_eq (check : CrcCheck) (np : NetworkParse) :
    parserParse check np = front check >>= fun x =>
      networkStep np x.header x.body >>= fun net => Pure.pure (x.replay net) := by
  unfold front section_
  simp only [P.bind_assoc, P.pure_bind]
  rfl

theorem section_spec {α : Type} {m : P α} {g : α → Bytes → Prop} (check : CrcCheck)
    (n1 n2 n3 n4 : String) (h : PSpec N m (ofG g)) :
    PSpec N (section_ check n1 n2 n3 n4 m) (fun x d d' =>
      ∃ bs, g x.2.2 bs ∧ d = word x.1 ++ (word x.2.1 ++ (bs ++ d')) ∧
        Fits x.1 (bs ++ d').length ∧
        (check = .always → Crc.crc ((bs ++ d').take x.1.toNat) = x.2.1)) := by
  unfold section_
  refine ((takeI32_spec _).bind' fun size => (takeI32_spec _).bind' fun crc =>
    PSpec.usize size (fun n _ hM _ => ((viewData_spec n).wrap _).bind' fun data =>
      (crcSection_spec check data crc n4 (h.mono hM)).bind' fun a => PSpec.pure _) ?_).congr ?_
  · rintro n hn a d d' hd ⟨data, d1, ⟨rfl, h1, _⟩, _⟩
    omega
  · rintro x d d' _
    constructor
    · rintro ⟨size, _, ⟨_, rfl, rfl⟩, crc, _, ⟨_, rfl, rfl⟩, h0, data, _, ⟨rfl, h1, rfl⟩, a, _,
        ⟨⟨bs, h2, rfl⟩, h3⟩, rfl, rfl⟩
      exact ⟨bs, h2, rfl, ⟨h0, h1⟩, h3⟩
    · rintro ⟨bs, h2, rfl, ⟨h0, h1⟩, h3⟩
      exact ⟨x.1, _, ⟨_, rfl, rfl⟩, x.2.1, _, ⟨_, rfl, rfl⟩, h0, _, _, ⟨rfl, h1, rfl⟩, x.2.2, _,
        ⟨⟨bs, h2, rfl⟩, h3⟩, rfl, rfl⟩

theorem front_spec (check : CrcCheck) :
    PSpec N (front check) (FileSecs (decide (check = .always))) := by
  unfold front
  refine ((section_spec check _ _ _ _ parseHeader_spec).bind' fun h =>
    (section_spec check _ _ _ _ parseBody_spec).bind' fun b => PSpec.pure _).congr ?_
  intro x d d' _
  unfold FileSecs
  simp only [decide_eq_true_eq]
  constructor
  · rintro ⟨h, _, ⟨bh, h1, rfl, h2, h3⟩, b, _, ⟨bb, h4, rfl, h5, h6⟩, rfl, rfl⟩
    exact ⟨bh, bb, h1, h4, rfl, h2, h5, fun hc => ⟨h3 hc, h6 hc⟩⟩
  · rintro ⟨bh, bb, h1, h4, rfl, h2, h5, h6⟩
    exact ⟨(x.headerSize, x.headerCrc, x.header), _, ⟨bh, h1, rfl, h2, fun hc => (h6 hc).1⟩,
      (x.contentSize, x.contentCrc, x.body), _, ⟨bb, h4, rfl, h5, fun hc => (h6 hc).2⟩, rfl, rfl⟩

/-! ## The result of `parse` -/

/-- The outcome of the network step. -/
def NetOutcome (env : Env) (np : NetworkParse) (h : Header) (b : ReplayBody)
    (net : Option NetworkFrames) : Prop :=
  match np with
  | .never => net = none
  | .always => ∃ f, Network.parse env h b = .ok f ∧ net = some f
  | .ignoreOnError => (∃ f, Network.parse env h b = .ok f ∧ net = some f) ∨
      (∃ e, Network.parse env h b = .err e ∧ net = none)

theorem networkStep_ok (np : NetworkParse) (h : Header) (b : ReplayBody) (env : Env) (s s' : CoreSt)
    (net : Option NetworkFrames) :
    networkStep np h b env s = .ok net s' ↔ NetOutcome env np h b net ∧ s' = s := by
  unfold networkStep NetOutcome
  cases np with
  | never =>
    simp only [PRes.ok.injEq]
    constructor <;> rintro ⟨rfl, rfl⟩ <;> exact ⟨rfl, rfl⟩
  | always =>
    cases Network.parse env h b with
    | ok f =>
      simp only [PRes.ok.injEq, Res.ok.injEq]
      constructor
      · rintro ⟨rfl, rfl⟩; exact ⟨⟨f, rfl, rfl⟩, rfl⟩
      · rintro ⟨⟨_, rfl, rfl⟩, rfl⟩; exact ⟨rfl, rfl⟩
    | err e => simp
    | fault x => simp
  | ignoreOnError =>
    cases Network.parse env h b with
    | ok f =>
      simp only [PRes.ok.injEq, Res.ok.injEq, reduceCtorEq, false_and, exists_false, or_false]
      constructor
      · rintro ⟨rfl, rfl⟩; exact ⟨⟨f, rfl, rfl⟩, rfl⟩
      · rintro ⟨⟨_, rfl, rfl⟩, rfl⟩; exact ⟨rfl, rfl⟩
    | err e =>
      simp only [PRes.ok.injEq, Res.err.injEq, reduceCtorEq, false_and, exists_false, false_or]
      constructor
      · rintro ⟨rfl, rfl⟩; exact ⟨⟨e, rfl, rfl⟩, rfl⟩
      · rintro ⟨⟨_, rfl, rfl⟩, rfl⟩; exact ⟨rfl, rfl⟩
    | fault x => simp

/-- `parse` with the policies made explicit. -/
def parseWith (check : CrcCheck) (np : NetworkParse) (env : Env) (data : List Byte) :
    Res ParseError Replay :=
  (ParserBuilder.mk (some check) (some np)).parse env data

theorem parseWith_eq (check : CrcCheck) (np : NetworkParse) (env : Env) (data : List Byte) :
    parseWith check np env data =
      match front check env (CoreSt.init data) with
      | .ok x s =>
        match networkStep np x.header x.body env s with
        | .ok net _ => .ok (x.replay net)
        | .err e _ => .err e
        | .fault f => .fault f
      | .err e _ => .err e
      | .fault f => .fault f := by
  unfold parseWith ParserBuilder.parse
  simp only [Option.getD_some]
  rw [parserParse_eq]
  simp only [bind, P.bind, pure, P.pure]
  cases front check env (CoreSt.init data) with
  | ok x s => simp only; cases networkStep np x.header x.body env s <;> rfl
  | err e s => rfl
  | fault f => rfl

/-- With overflow checks, what is read before `rest` must be shorter than 2 GiB. -/
def Within (env : Env) (data rest : List Byte) : Prop :=
  env.checks = true → data.length - rest.length < 2 ^ 31

theorem Room.within {env : Env} {data rest : List Byte} (h : Room env data.length) :
    Within env data rest := fun hc => by have := h.2 hc; omega

theorem Within.append {env : Env} {data rest : List Byte} (h : Within env data rest)
    (t : List Byte) : Within env (data ++ t) (rest ++ t) := fun hc => by
  have := h hc
  simp only [List.length_append]
  omega

theorem Within.of_append {env : Env} {d rest : List Byte} (h : d.length < 2 ^ 31) :
    Within env (d ++ rest) rest := fun _ => by
  simp only [List.length_append]
  omega

theorem front_ok_iff (check : CrcCheck) (env : Env) (data : List Byte)
    (hl : data.length ≤ env.isizeMax) (x : Sections) :
    (∃ s, front check env (CoreSt.init data) = .ok x s) ↔
      ∃ rest, FileSecs (decide (check = .always)) x data rest ∧ Within env data rest := by
  have h := fun a s => (front_spec check).okIff data.length env (CoreSt.init data) hl CoreInv.init
    (Nat.le_refl _) a s
  constructor
  · rintro ⟨s, hs⟩
    exact ⟨s.data, ((h x s).1 hs).1, ((h x s).1 hs).2.2.2⟩
  · rintro ⟨rest, hr, hw⟩
    have hs : rest <:+ data := (front_spec check).suffix x data rest (Nat.le_refl _) hr
    exact ⟨⟨rest, BitVec.ofNat 32 (data.length - rest.length)⟩,
      (h x _).2 ⟨hr, hs.length_le, rfl, hw⟩⟩

theorem front_ok_iff_room (check : CrcCheck) (env : Env) (data : List Byte)
    (hl : Room env data.length) (x : Sections) :
    (∃ s, front check env (CoreSt.init data) = .ok x s) ↔
      ∃ rest, FileSecs (decide (check = .always)) x data rest := by
  rw [front_ok_iff check env data hl.1]
  constructor
  · rintro ⟨rest, h, _⟩; exact ⟨rest, h⟩
  · rintro ⟨rest, h⟩; exact ⟨rest, h, hl.within⟩

/-- What `parse` accepts, for every slice that can exist. -/
theorem parseWith_ok_iff_all (check : CrcCheck) (np : NetworkParse) (env : Env) (data : List Byte)
    (hl : data.length ≤ env.isizeMax) (r : Replay) :
    parseWith check np env data = .ok r ↔
      ∃ x rest net, FileSecs (decide (check = .always)) x data rest ∧ Within env data rest ∧
        NetOutcome env np x.header x.body net ∧ r = x.replay net := by
  rw [parseWith_eq]
  constructor
  · intro h
    cases hf : front check env (CoreSt.init data) with
    | ok x s =>
      rw [hf] at h
      simp only at h
      obtain ⟨rest, hr, hw⟩ := (front_ok_iff check env data hl x).1 ⟨s, hf⟩
      cases hn : networkStep np x.header x.body env s with
      | ok net s' =>
        rw [hn] at h
        cases h
        exact ⟨x, rest, net, hr, hw, ((networkStep_ok ..).1 hn).1, rfl⟩
      | err e s' => rw [hn] at h; cases h
      | fault f => rw [hn] at h; cases h
    | err e s => rw [hf] at h; cases h
    | fault f => rw [hf] at h; cases h
  · rintro ⟨x, rest, net, hr, hw, hn, rfl⟩
    obtain ⟨s, hf⟩ := (front_ok_iff check env data hl x).2 ⟨rest, hr, hw⟩
    rw [hf]
    simp only
    rw [(networkStep_ok np x.header x.body env s s net).2 ⟨hn, rfl⟩]

/-- What `parse` accepts when the offset counter cannot overflow. -/
theorem parseWith_ok_iff (check : CrcCheck) (np : NetworkParse) (env : Env) (data : List Byte)
    (hl : Room env data.length) (r : Replay) :
    parseWith check np env data = .ok r ↔
      ∃ x rest net, FileSecs (decide (check = .always)) x data rest ∧
        NetOutcome env np x.header x.body net ∧ r = x.replay net := by
  rw [parseWith_ok_iff_all check np env data hl.1]
  constructor
  · rintro ⟨x, rest, net, h1, _, h2⟩; exact ⟨x, rest, net, h1, h2⟩
  · rintro ⟨x, rest, net, h1, h2⟩; exact ⟨x, rest, net, h1, hl.within, h2⟩

/-- What a successful parse tells, whatever the size of the input. -/
theorem parseWith_ok_of {check : CrcCheck} {np : NetworkParse} {env : Env} {data : List Byte}
    (hl : data.length ≤ env.isizeMax) {r : Replay} (h : parseWith check np env data = .ok r) :
    ∃ x rest net, FileSecs (decide (check = .always)) x data rest ∧
      NetOutcome env np x.header x.body net ∧ r = x.replay net := by
  obtain ⟨x, rest, net, h1, _, h2⟩ := (parseWith_ok_iff_all check np env data hl r).1 h
  exact ⟨x, rest, net, h1, h2⟩

/-- The sections of a file are determined by its bytes. -/
theorem FileSecs_unique {c c' : Bool} {x y : Sections} {data r1 r2 : List Byte}
    (hl : data.length < 2 ^ 63)
    (h1 : FileSecs c x data r1) (h2 : FileSecs c' y data r2) : x = y ∧ r1 = r2 := by
  have weaken : ∀ {c x r}, FileSecs c x data r → FileSecs (decide (CrcCheck.never = .always)) x data r := by
    rintro c x r ⟨bh, bb, h1, h2, h3, h4, h5, _⟩
    exact ⟨bh, bb, h1, h2, h3, h4, h5, fun h => absurd h (by decide)⟩
  have h1 := weaken h1
  have h2 := weaken h2
  let env : Env := { Env.default64 with checks := false }
  have key := fun (z : Sections) (r : List Byte) (hr : FileSecs _ z data r) =>
    ((front_spec .never).okIff data.length env (CoreSt.init data)
      (by show data.length ≤ 2 ^ 63 - 1; omega) CoreInv.init
      (Nat.le_refl _) z ⟨r, BitVec.ofNat 32 (data.length - r.length)⟩).2
      ⟨hr, ((front_spec .never).suffix z data r (Nat.le_refl _) hr).length_le, rfl,
        fun h => Bool.noConfusion h⟩
  have e := (key x r1 h1).symm.trans (key y r2 h2)
  simp only [PRes.ok.injEq, CoreSt.mk.injEq] at e
  exact ⟨e.1, e.2.1⟩

theorem isizeMax_lt (env : Env) : env.isizeMax < 2 ^ 63 := by
  unfold Env.isizeMax
  rcases env.usizeBits_eq with h | h <;> rw [h] <;> decide

end Boxcars
