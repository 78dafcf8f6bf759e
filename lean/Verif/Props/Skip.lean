import Verif.Proofs.WorkSkip
import Verif.Props.Work
/-!
# C89: network data that is not decoded costs nothing
-/
namespace Boxcars.Props
open Boxcars Spec

/-- C89. If the network data is not to be decoded and checksums are not always verified, then
reading an accepted file takes at most three steps for each byte outside the network data, of
which at most one for the network data. -/
theorem skip_work (b : ParserBuilder) (hc : b.crcCheck.getD .onError ≠ .always)
    (hn : b.networkParse.getD .ignoreOnError = .never) {env : Env} {data : List Byte}
    (hs : data.length ≤ env.isizeMax) {r : Replay} (hp : b.parse env data = .ok r) :
    ∃ x rest, FileSecs false x data rest ∧ r = x.replay none ∧
      (Work.parse b env data).2 + 3 * x.body.networkData.length + 3 * rest.length ≤
        3 * data.length + 4 := by
  have hsk := Work.front_skim hc
  have he := hsk.erase env (CoreSt.init data)
  unfold ParserBuilder.parse at hp
  unfold Work.parse
  rw [hn] at hp ⊢
  generalize b.crcCheck.getD .onError = check at *
  rw [Boxcars.parserParse_eq] at hp
  rw [Work.parserParse_eq]
  simp only [bind, P.bind, Work.PT.bind] at hp ⊢
  cases hf : Boxcars.front check env (CoreSt.init data) with
  | err e s => rw [hf] at hp; cases hp
  | fault f => rw [hf] at hp; cases hp
  | ok x s =>
    have hcost := hsk.ok env _ x s hf
    have hr := ((front_spec check).okIff data.length env (CoreSt.init data) hs CoreInv.init
      (Nat.le_refl _) x s).1 hf
    rw [hf] at hp he
    rcases ht : Work.front check env (CoreSt.init data) with ⟨y, t⟩
    rw [ht] at he hcost
    simp only at he hcost
    subst he
    refine ⟨x, s.data, ?_, ?_, ?_⟩
    · have := hr.1
      rwa [decide_eq_false hc] at this
    · cases hp; rfl
    · have e : (CoreSt.init data).data = data := rfl
      rw [e] at hcost
      show (t + (0 + 0)) + _ + _ ≤ _
      omega

/-- C89. If checksums are always verified, every byte of the two sections is looked at, that of
the network data included, whatever was asked about decoding it. -/
theorem verify_work (b : ParserBuilder) (hc : b.crcCheck.getD .onError = .always) {env : Env}
    {data : List Byte} {r : Replay}
    (hp : b.parse env data = .ok r) :
    env.usizeOfI32 r.headerSize + env.usizeOfI32 r.contentSize ≤ (Work.parse b env data).2 := by
  have hsk := Work.front_least (env := env)
  have he := hsk.erase (CoreSt.init data)
  unfold ParserBuilder.parse at hp
  unfold Work.parse
  rw [hc] at hp ⊢
  generalize b.networkParse.getD .ignoreOnError = np at *
  rw [Boxcars.parserParse_eq] at hp
  rw [Work.parserParse_eq]
  simp only [bind, P.bind, Work.PT.bind] at hp ⊢
  cases hf : Boxcars.front .always env (CoreSt.init data) with
  | err e s => rw [hf] at hp; cases hp
  | fault f => rw [hf] at hp; cases hp
  | ok x s =>
    have hcost := hsk.ok _ x s hf
    rw [hf] at hp he
    rcases ht : Work.front .always env (CoreSt.init data) with ⟨y, t⟩
    rw [ht] at he hcost
    simp only at he hcost
    subst he
    simp only at hp ⊢
    cases hq : Boxcars.networkStep np x.header x.body env s with
    | ok net s' =>
      rw [hq] at hp
      cases hp
      unfold Work.networkStep
      rw [hq]
      show env.usizeOfI32 x.headerSize + env.usizeOfI32 x.contentSize ≤ t + _
      omega
    | err e s' => rw [hq] at hp; cases hp
    | fault f => rw [hq] at hp; cases hp

set_option maxRecDepth 100000 in
/-- An instance: 325 bytes, of which 59 are network data. -/
example : (Work.parse ParserBuilder.new.neverParseNetworkData Env.default64 demo).2 = 314 ∧
    (Work.parse ParserBuilder.new.neverParseNetworkData.alwaysCheckCrc Env.default64 demo).2 = 623 ∧
    (Work.parse ParserBuilder.new Env.default64 demo).2 = 1069 := by
  decide +kernel

end Boxcars.Props
