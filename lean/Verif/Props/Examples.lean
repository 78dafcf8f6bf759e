import Verif.Proofs.Examples
import Verif.Props.Frames
import Verif.Props.NoPanic
import Verif.Props.Header
import Verif.Props.Cut
import Verif.Props.PlayerSample
/-!
# C60–C63: the example programs

`names.rs`, `property_counter.rs`, `ping.rs` and `demo.rs`.  The two in the middle do not do what
they are for; see `counter_independent_false` and `pings_listed_false`.
-/
namespace Boxcars.Props
open Boxcars Spec Examples

section
variable {check : CrcCheck} {np : NetworkParse} {env : Env} {data : List Byte} {r : Replay}

theorem objects_short (hs : data.length ≤ env.isizeMax) (h : parseWith check np env data = .ok r) :
    r.objects.length < 2 ^ 32 := by
  have : r.objects.length ≤ 25000 := (replay_list_lengths env check np data hs r h).2.2.2.2.2.2.1
  omega

/-- The value of an update of an object of known name has the type of that name. -/
theorem typed_update (hs : data.length ≤ env.isizeMax) (h : parseWith check np env data = .ok r) {name : Str}
    {tag : AttributeTag} (ht : attributeTag name = some tag) {t : F32} {u : UpdatedAttribute}
    (hu : (t, u) ∈ updatesOf r) (ho : objectOf r u = some name) : HasType tag u.attr := by
  unfold updatesOf at hu
  cases hn : r.networkFrames with
  | none => rw [hn] at hu; cases hu
  | some n =>
    rw [hn] at hu
    obtain ⟨f, hf, hu⟩ := List.mem_flatMap.1 hu
    obtain ⟨v, hv, he⟩ := List.mem_map.1 hu
    cases he
    obtain ⟨name', tag', h1, h2, h3⟩ := update_type hs h hn f hf u hv
    rw [show r.objects[u.objectId.toNat]? = objectOf r u from rfl, ho] at h1
    cases h1
    rw [ht] at h2
    cases h2
    exact h3

theorem playerName_tag : attributeTag playerName = some .string := by decide +kernel
theorem playerPing_tag : attributeTag playerPing = some .byte := by decide +kernel

/-! ## C60: `names.rs` -/

theorem headerNames (r : Replay) : HeaderNames r (namesHeader r).lines (namesHeader r).exit := by
  unfold namesHeader
  cases hf : r.properties.find? (fun p => p.1 == lit "PlayerStats") with
  | none =>
    refine .absent fun p hp he => ?_
    have := List.find?_eq_none.1 hf p hp
    exact this (beq_iff_eq.2 he)
  | some kv =>
    obtain ⟨k, v⟩ := kv
    obtain ⟨h1, pre, post, h2, h3⟩ := List.find?_eq_some_iff_append.1 hf
    have hk : k = lit "PlayerStats" := beq_iff_eq.1 h1
    have hfirst : FirstProp r.properties "PlayerStats".toList v :=
      ⟨pre, post, by rw [h2, hk], fun p hp he => by
        have := h3 p hp
        rw [show (p.1 == lit "PlayerStats") = true from beq_iff_eq.2 he] at this
        cases this⟩
    cases v with
    | array arr =>
      simp only
      rw [namesInHeader_eq]
      exact .listed hfirst
    | _ => exact .other hfirst (fun _ h => by cases h)

theorem networkNames (hl : r.objects.length < 2 ^ 32) (ho : Once r.objects playerName) :
    NetworkNames r (namesNetwork r).lines (namesNetwork r).exit := by
  unfold namesNetwork
  cases hn : r.networkFrames with
  | none => exact .absent hn
  | some n =>
    simp only
    cases hf : findObjectId r.objects "Engine.PlayerReplicationInfo:PlayerName" with
    | none => exact .unlisted hn (findObjectId_none.1 hf)
    | some id =>
      exact .listed hn (List.mem_of_getElem? (findObjectId_some hl hf))
        (namesInNetwork_listing hl ho hn hf)

/-- C60. What `names.rs` prints: the texts under `Name` in the first `PlayerStats` of the header, in
order, then each name the network data announces once, in alphabetical order. -/
theorem names_run (hs : data.length ≤ env.isizeMax) (h : parseWith .onError .ignoreOnError env data = .ok r)
    (ho : Once r.objects playerName) : NamesRun r (namesMain env data) := by
  have h' : ParserBuilder.new.onErrorCheckCrc.ignoreNetworkDataOnError.parse env data = .ok r := h
  unfold namesMain
  rw [h']
  have hh := headerNames r
  have hn := networkNames (objects_short hs h) ho
  show NamesRun r ((namesHeader r).andThen (namesNetwork r))
  generalize namesHeader r = a at hh ⊢
  obtain ⟨lines, exit⟩ := a
  cases exit with
  | success => exact .both hh hn
  | _ => exact .header hh (fun h => by cases h)

/-- C60. A file that is not a replay is answered with the error of the parser, and no file makes the
program panic. -/
theorem names_rejected (hs : Small env data) :
    (∀ e, parseWith .onError .ignoreOnError env data = .err e →
      namesMain env data = ⟨[], .parse e⟩) ∧
    ∀ f, (namesMain env data).exit ≠ .fault f := by
  constructor
  · intro e h
    have h' : ParserBuilder.new.onErrorCheckCrc.ignoreNetworkDataOnError.parse env data = .err e := h
    unfold namesMain
    rw [h']
  · intro f
    unfold namesMain
    cases h : ParserBuilder.new.onErrorCheckCrc.ignoreNetworkDataOnError.parse env data with
    | err e => exact fun h => by cases h
    | fault x => exact absurd h (no_panic .onError .ignoreOnError env data hs x)
    | ok r =>
      have hh := headerNames r
      have hx : (namesNetwork r).exit ≠ .fault f := by
        unfold namesNetwork
        split
        · split <;> exact fun h => by cases h
        · exact fun h => by cases h
      show ((namesHeader r).andThen (namesNetwork r)).exit ≠ _
      generalize namesHeader r = a at hh ⊢
      obtain ⟨lines, exit⟩ := a
      cases exit with
      | success => exact hx
      | fault g => generalize hg : Exit.fault g = y at hh; cases hh <;> cases hg
      | _ => exact fun h => by cases h

/-- C60. Every update of that object announces a name: none is left out for being of another kind. -/
theorem name_updates (hs : data.length ≤ env.isizeMax) (h : parseWith check np env data = .ok r) {t : F32}
    {u : UpdatedAttribute} (hu : (t, u) ∈ updatesOf r) (ho : objectOf r u = some playerName) :
    ∃ m, u.attr = .string m ∧ Announced r m := by
  have := typed_update hs h playerName_tag hu ho
  generalize ha : u.attr = a at this
  cases this
  exact ⟨_, rfl, t, u, hu, ho, ha⟩

set_option maxRecDepth 100000 in
/-- The sample with two players. -/
theorem names_players : namesMain Env.default64 players =
    ⟨["Names in the header data:", "A", "Names in the network data:", "A", "B"].map String.toList,
      .success⟩ := by
  decide +kernel

/-- With the name twice in the table of objects, a name can be missed. -/
theorem names_twice :
    namesInNetwork [⟨0, 0, [], [], [⟨5, 0, 1, .string "A".toList⟩]⟩] 0 = [] ∧
      findObjectId [playerName, playerName] "Engine.PlayerReplicationInfo:PlayerName" = some 0 := by
  decide +kernel

end

/-! ## C61: `property_counter.rs` -/

section
variable (fmt : Display.Fmt) (env : Env)

theorem readFile_no_fault {d : Bytes} (hs : Small env d) (x : Fault) : readFile env d ≠ .fault x :=
  no_panic .never .never env d hs x

/-- All files small enough. -/
def AllSmall (files : List Argument) : Prop := ∀ f ∈ files, ∀ d, f.2 = .ok d → Small env d

theorem counter_split {files : List Argument}
    (h : files.Pairwise (fun f g => Rejected env f → ∃ msg, g.2 = .error msg)) :
    (∀ f ∈ files, ¬Rejected env f) ∨ ∃ a f b, files = a ++ f :: b ∧ (∀ g ∈ a, ¬Rejected env g) ∧
      Rejected env f ∧ ∀ g ∈ b, ∃ msg, g.2 = .error msg := by
  induction files with
  | nil => exact .inl (fun f hf => by cases hf)
  | cons f files ih =>
    obtain ⟨h1, h2⟩ := List.pairwise_cons.1 h
    by_cases hf : Rejected env f
    · exact .inr ⟨[], f, files, rfl, fun g hg => (by cases hg), hf, fun g hg => h1 g hg hf⟩
    · rcases ih h2 with h3 | ⟨a, g, b, rfl, h3, h4, h5⟩
      · exact .inl fun g hg => by
          rcases List.mem_cons.1 hg with rfl | hg
          · exact hf
          · exact h3 g hg
      · refine .inr ⟨f :: a, g, b, rfl, fun x hx => ?_, h4, h5⟩
        rcases List.mem_cons.1 hx with rfl | hx
        · exact hf
        · exact h3 x hx

/-- The run when replays are followed by one rejected file and files with which it is rejected all
the same. -/
theorem counter_stuck_run (a b : List Argument) (name : Str) (bad : Bytes) (e : ParseError)
    (hs : AllSmall env a) (ha : ∀ f ∈ a, ¬Rejected env f) (hr : readFile env bad = .err e)
    (hb : ∀ t u, contents b = t ++ u → readFile env (bad ++ t) = .err e) :
    ∃ la lb sums, List.Forall₂ (FileLine fmt env) a la ∧
      List.Forall₂ (StuckLine fmt e) ((name, .ok bad) :: b) lb ∧
      Summary (a.filter (isReplay env)).length (a.flatMap (fileLabels env)) sums ∧
      counterMain fmt env (a ++ (name, .ok bad) :: b) = ⟨la ++ lb ++ sums, .success⟩ := by
  obtain ⟨c, la, h1, h2, h3⟩ := counterFiles_fine (fmt := fmt) a ha
    (fun f hf d x hd => readFile_no_fault env (hs f hf d hd) x) [] 0 [] [] Holds.nil
  simp only [List.nil_append, Nat.zero_add] at h1 h2
  have hr' : ParserBuilder.new.neverCheckCrc.neverParseNetworkData.parse env bad = .err e := hr
  obtain ⟨b', lb, h4, h5⟩ := counterFiles_stuck (fmt := fmt) e b bad hb c
    (a.filter (isReplay env)).length
    (la ++ [lit "unable to parse file " ++ name ++ lit ": " ++ Display.parseError fmt e])
  have hall : counterFiles fmt env ⟨[], [], 0, []⟩ (a ++ (name, .ok bad) :: b) =
      .ok ⟨b', c, (a.filter (isReplay env)).length,
        la ++ [lit "unable to parse file " ++ name ++ lit ": " ++ Display.parseError fmt e] ++ lb⟩ := by
    rw [counterFiles_append _ _ _ _ h1, counterFiles, counterFile]
    simp only [List.nil_append, hr']
    exact h4
  obtain ⟨sums, h6, h7⟩ := counterMain_ok hall h2
  refine ⟨la, _ :: lb, sums, h3, .cons .rejected h5, h6, ?_⟩
  rw [h7]
  simp only [List.append_assoc, List.singleton_append]

/-- C61. As long as no file is read after one that is not a replay, each file is reported on its own,
and the sums are those of the replays.  The full statement, `CounterRun` for all files, is
false: `counter_independent_false`. -/
theorem counter_run_partial (files : List Argument) (hs : AllSmall env files)
    (hf : files.Pairwise (fun f g => Rejected env f → ∃ msg, g.2 = .error msg)) :
    CounterRun fmt env files (counterMain fmt env files) := by
  rcases counter_split env hf with hg | ⟨a, f, b, rfl, h1, ⟨d, e, h2, h3⟩, h4⟩
  · obtain ⟨c, lines, h1, h2, h3⟩ := counterFiles_fine (fmt := fmt) files hg
      (fun f hf d x hd => readFile_no_fault env (hs f hf d hd) x) [] 0 [] [] Holds.nil
    simp only [List.nil_append, Nat.zero_add] at h1 h2
    obtain ⟨sums, h6, h7⟩ := counterMain_ok h1 h2
    rw [h7]
    exact .mk h3 h6
  · obtain ⟨name, content⟩ := f
    cases h2
    have hc : contents b = [] := by
      refine List.flatMap_eq_nil_iff.2 fun g hg => ?_
      obtain ⟨msg, hm⟩ := h4 g hg
      rw [hm]
    obtain ⟨la, lb, sums, g1, g2, g3, g4⟩ := counter_stuck_run fmt env a b name d e
      (fun f hf => hs f (List.mem_append_left _ hf)) h1 h3 (fun t u htu => by
        rw [hc] at htu
        rw [(List.append_eq_nil_iff.1 htu.symm).1, List.append_nil]
        exact h3)
    rw [g4]
    have none : ∀ g ∈ (name, .ok d) :: b, isReplay env g = false ∧ fileLabels env g = [] := by
      intro g hg
      rcases List.mem_cons.1 hg with rfl | hg
      · simp [isReplay, fileLabels, h3]
      · obtain ⟨msg, hm⟩ := h4 g hg
        simp [isReplay, fileLabels, hm]
    refine .mk (lines := la ++ lb) (List.rel_append g1 ?_) ?_
    · cases g2 with
      | cons hx hxs =>
        cases hx with
        | rejected =>
          refine .cons (.rejected h3) ?_
          clear g4 hs none hf hc
          induction hxs with
          | nil => exact .nil
          | @cons g l b lb hg _ ih =>
            refine .cons ?_ (ih fun x hx => h4 x (List.mem_cons_of_mem _ hx))
            obtain ⟨msg, hm⟩ := h4 g List.mem_cons_self
            cases hg with
            | rejected => cases hm
            | unread => exact .unread
    · have f1 : ((name, .ok d) :: b).filter (isReplay env) = [] :=
        List.filter_eq_nil_iff.2 (fun g hg => by rw [(none g hg).1]; exact fun h => by cases h)
      have f2 : ((name, .ok d) :: b).flatMap (fileLabels env) = [] :=
        List.flatMap_eq_nil_iff.2 (fun g hg => (none g hg).2)
      rw [List.filter_append, List.flatMap_append, f1, f2, List.append_nil, List.append_nil]
      exact g3

/-- C61, false of the code: after a file with an error that is not about missing data, every file is
reported with that error and none is counted. -/
theorem counter_stuck (a b : List Argument) (name : Str) (bad : Bytes) (e : ParseError)
    (hs : AllSmall env a) (ha : ∀ f ∈ a, ¬Rejected env f) (hr : readFile env bad = .err e)
    (hm : ¬Missing e) (hb : Small env (bad ++ contents b)) :
    ∃ la lb sums, List.Forall₂ (FileLine fmt env) a la ∧
      List.Forall₂ (StuckLine fmt e) ((name, .ok bad) :: b) lb ∧
      Summary (a.filter (isReplay env)).length (a.flatMap (fileLabels env)) sums ∧
      counterMain fmt env (a ++ (name, .ok bad) :: b) = ⟨la ++ lb ++ sums, .success⟩ :=
  counter_stuck_run fmt env a b name bad e hs ha hr fun t u htu => by
    rw [htu, ← List.append_assoc] at hb
    exact (error_final .never .never env bad t (small_of_append env hb) e hr).resolve_left hm

/-- A file with a property of unknown kind. -/
def badFile : List Byte := sample.set 37 0x4a

theorem badFile_error : ∃ e, readFile Env.default64 badFile = .err e ∧ ¬Missing e := by
  have h : (match parseWith .never .never Env.default64 badFile with
      | .err e => (match cause e with | .insufficientData _ _ => false | _ => true)
      | _ => false) = true := by decide +kernel
  cases hp : parseWith .never .never Env.default64 badFile with
  | ok r => rw [hp] at h; cases h
  | fault f => rw [hp] at h; cases h
  | err e =>
    refine ⟨e, hp, ?_⟩
    rintro ⟨x, y, hc⟩
    rw [hp] at h
    simp only [hc] at h
    cases h

theorem sample_replay (name : Str) : isReplay Env.default64 (name, .ok sample) = true := by
  have h : (match parseWith .never .never Env.default64 sample with
    | .ok _ => true | _ => false) = true := by decide +kernel
  cases p : readFile Env.default64 sample with
  | ok r => simp only [isReplay, p]
  | err e => rw [show parseWith .never .never Env.default64 sample = .err e from p] at h; cases h
  | fault f => rw [show parseWith .never .never Env.default64 sample = .fault f from p] at h; cases h

/-- C61, false of the code.  A bad file and a replay: the replay is not counted. -/
theorem counter_independent_false :
    ∃ files, AllSmall Env.default64 files ∧
      ¬CounterRun fmt Env.default64 files (counterMain fmt Env.default64 files) := by
  have hlen : badFile.length = 118 := by decide
  have hlen' : sample.length = 118 := by decide
  obtain ⟨e, he, hm⟩ := badFile_error
  refine ⟨[(lit "a", .ok badFile), (lit "b", .ok sample)], ?_, ?_⟩
  · intro f hf d hd
    rcases List.mem_cons.1 hf with rfl | hf
    · cases hd; exact small64 rfl (by omega)
    · rw [List.mem_singleton] at hf; subst hf; cases hd; exact small64 rfl (by omega)
  · obtain ⟨la, lb, sums, h1, h2, h3, h4⟩ := counter_stuck fmt Env.default64 []
      [(lit "b", .ok sample)] (lit "a") badFile e (fun f hf => by cases hf)
      (fun f hf => by cases hf) he hm (small64 rfl (by
        rw [List.length_append, show (contents [(lit "b", .ok sample)]) = sample from
          List.append_nil _]
        omega))
    rw [List.nil_append] at h4
    rw [h4]
    intro hrun
    generalize hx : (⟨la ++ lb ++ sums, Exit.success⟩ : Run) = x at hrun
    obtain ⟨k1, k2⟩ := hrun
    have l1 := h1.length_eq
    have l2 := h2.length_eq
    have l3 := k1.length_eq
    cases h3 with
    | mk h3 =>
      cases k2 with
      | mk k2 =>
        have hlines := congrArg Run.lines hx
        simp only at hlines
        have hdrop := (List.append_inj hlines (by
          rw [List.length_append]; simp only [List.length_cons, List.length_nil] at l1 l2 l3; omega)).2
        have hhead := (List.cons.inj hdrop).1
        have n1 : ([(lit "a", Except.ok badFile), (lit "b", Except.ok sample)].filter
            (isReplay Env.default64)).length = 1 := by
          have b1 : isReplay Env.default64 (lit "a", .ok badFile) = false := by
            simp only [isReplay, he]
          rw [List.filter_cons_of_neg (by rw [b1]; exact fun h => by cases h),
            List.filter_cons_of_pos (sample_replay _)]
          rfl
        rw [n1] at hhead
        revert hhead
        decide +kernel

/-- C61, false of the code.  Of a replay cut in two, the second part is reported as a replay. -/
theorem counter_phantom : ∃ st,
    counterFiles fmt Env.default64 ⟨[], [], 0, []⟩
      [(lit "a", .ok (sample.take 100)), (lit "b", .ok (sample.drop 100))] = .ok st ∧
    st.files = 1 ∧ st.lines.getLast? = some (lit "Parsed: " ++ lit "b") ∧
    isReplay Env.default64 (lit "b", .ok (sample.drop 100)) = false := by
  have h1 : (match parseWith .never .never Env.default64 (sample.take 100) with
    | .err _ => true | _ => false) = true := by decide +kernel
  have h2 : isReplay Env.default64 (lit "b", .ok (sample.drop 100)) = false := by decide +kernel
  have h3 : (match parseWith .never .never Env.default64 sample with
    | .ok _ => true | _ => false) = true := by decide +kernel
  cases p1 : parseWith .never .never Env.default64 (sample.take 100) with
  | ok r => rw [p1] at h1; cases h1
  | fault f => rw [p1] at h1; cases h1
  | err e =>
    cases p3 : parseWith .never .never Env.default64 sample with
    | err e => rw [p3] at h3; cases h3
    | fault f => rw [p3] at h3; cases h3
    | ok r =>
      have q1 : ParserBuilder.new.neverCheckCrc.neverParseNetworkData.parse Env.default64
        (sample.take 100) = .err e := p1
      have q3 : ParserBuilder.new.neverCheckCrc.neverParseNetworkData.parse Env.default64
        (sample.take 100 ++ sample.drop 100) = .ok r := by rw [List.take_append_drop]; exact p3
      refine ⟨⟨[], countProperties r.properties [] [], 1,
        [lit "unable to parse file " ++ lit "a" ++ lit ": " ++ Display.parseError fmt e]
          ++ [lit "Parsed: " ++ lit "b"]⟩, ?_, rfl, ?_, h2⟩
      · rw [counterFiles, counterFile]
        simp only [List.nil_append, q1]
        rw [counterFiles, counterFile]
        simp only [q3]
        rw [counterFiles]
      · simp only [List.getLast?_append, List.getLast?_singleton, Option.some_or]

/-- Texts without a colon, up to the end or the next colon. -/
theorem colon_split {a b x y : Str} (ha : ':' ∉ a) (hb : ':' ∉ b)
    (hx : x = [] ∨ ∃ t, x = ':' :: t) (hy : y = [] ∨ ∃ t, y = ':' :: t) (h : a ++ x = b ++ y) :
    a = b ∧ x = y := by
  induction a generalizing b with
  | nil =>
    cases b with
    | nil => exact ⟨rfl, h⟩
    | cons c b =>
      rcases hx with rfl | ⟨t, rfl⟩
      · cases h
      · simp only [List.nil_append, List.cons_append, List.cons.injEq] at h
        exact absurd (h.1 ▸ List.mem_cons_self) hb
  | cons c a ih =>
    cases b with
    | nil =>
      rcases hy with rfl | ⟨t, rfl⟩
      · cases h
      · simp only [List.nil_append, List.cons_append, List.cons.injEq] at h
        exact absurd (h.1 ▸ List.mem_cons_self) ha
    | cons d b =>
      simp only [List.cons_append, List.cons.injEq] at h
      obtain ⟨h1, h2⟩ := ih (fun hm => ha (List.mem_cons_of_mem _ hm))
        (fun hm => hb (List.mem_cons_of_mem _ hm)) h.2
      exact ⟨by rw [h.1, h1], h2⟩

theorem colons_injective : ∀ {p q : List Str}, (∀ k ∈ p, ':' ∉ k) → (∀ k ∈ q, ':' ∉ k) →
    p.flatMap (fun k => ':' :: k) = q.flatMap (fun k => ':' :: k) → p = q
  | [], [], _, _, _ => rfl
  | [], _ :: _, _, _, h => by simp at h
  | _ :: _, [], _, _, h => by simp at h
  | a :: p, b :: q, hp, hq, h => by
    simp only [List.flatMap_cons, List.cons_append, List.cons.injEq, true_and] at h
    have start : ∀ l : List Str, l.flatMap (fun k => ':' :: k) = [] ∨
        ∃ t, l.flatMap (fun k => ':' :: k) = ':' :: t := by
      intro l
      cases l with
      | nil => exact .inl rfl
      | cons k l => exact .inr ⟨_, rfl⟩
    obtain ⟨h1, h2⟩ := colon_split (hp a List.mem_cons_self) (hq b List.mem_cons_self)
      (start p) (start q) h
    rw [h1, colons_injective (fun k hk => hp k (List.mem_cons_of_mem _ hk))
      (fun k hk => hq k (List.mem_cons_of_mem _ hk)) h2]

/-- A label, with a colon in front. -/
theorem colon_label {n : List Str × Str} (h : ∀ k ∈ n.1, k ≠ []) (hn : n.1 ≠ []) :
    ':' :: label n = (n.1 ++ [n.2]).flatMap (fun k => ':' :: k) := by
  obtain ⟨path, kind⟩ := n
  cases path with
  | nil => exact absurd rfl hn
  | cons k path =>
    unfold label
    have hk : k ≠ [] := h k List.mem_cons_self
    rw [List.dropWhile_cons_of_neg (by simpa using hk), intercalate_flatMap,
      show (":".toList : Str) = [':'] by decide]
    simp only [List.cons_append, List.flatMap_cons, List.flatMap_append, List.flatMap_nil,
      List.append_nil, List.nil_append, List.append_assoc]

/-- C61. Properties at different places are counted apart if no key is empty or has a colon. -/
theorem label_injective {n m : List Str × Str}
    (hn : n.1 ≠ [] ∧ ':' ∉ n.2 ∧ ∀ k ∈ n.1, k ≠ [] ∧ ':' ∉ k)
    (hm : m.1 ≠ [] ∧ ':' ∉ m.2 ∧ ∀ k ∈ m.1, k ≠ [] ∧ ':' ∉ k) (h : label n = label m) : n = m := by
  have hc : ':' :: label n = ':' :: label m := by rw [h]
  rw [colon_label (fun k hk => (hn.2.2 k hk).1) hn.1,
    colon_label (fun k hk => (hm.2.2 k hk).1) hm.1] at hc
  have plain : ∀ {n : List Str × Str}, (n.1 ≠ [] ∧ ':' ∉ n.2 ∧ ∀ k ∈ n.1, k ≠ [] ∧ ':' ∉ k) →
      ∀ k ∈ n.1 ++ [n.2], ':' ∉ k := by
    intro n hn k hk
    rcases List.mem_append.1 hk with hk | hk
    · exact (hn.2.2 k hk).2
    · rw [List.mem_singleton.1 hk]; exact hn.2.1
  have := colons_injective (plain hn) (plain hm) hc
  obtain ⟨h1, h2⟩ := List.append_inj' this rfl
  exact Prod.ext h1 (List.cons.inj h2).1

/-- Otherwise they need not be. -/
theorem label_collision :
    label (["a:b".toList], "int".toList) = label (["a".toList, "b".toList], "int".toList) ∧
    label ([[], "a".toList], "int".toList) = label (["a".toList], "int".toList) := by
  decide +kernel

/-- One property, two files. -/
theorem counter_sample : ∃ st,
    counterFiles fmt Env.default64 ⟨[], [], 0, []⟩
      [(lit "a", .ok sample), (lit "c", .error (lit "x")), (lit "b", .ok sample)] = .ok st ∧
    st.files = 2 ∧ st.counter = [(lit "Id:int", 2)] := by
  have h : (match parseWith .never .never Env.default64 sample with
    | .ok r => countProperties r.properties [] (countProperties r.properties [] []) ==
        [(lit "Id:int", 2)] | _ => false) = true := by decide +kernel
  cases p : parseWith .never .never Env.default64 sample with
  | err e => rw [p] at h; cases h
  | fault f => rw [p] at h; cases h
  | ok r =>
    rw [p] at h
    have q : ParserBuilder.new.neverCheckCrc.neverParseNetworkData.parse Env.default64 sample =
      .ok r := p
    refine ⟨⟨[], countProperties r.properties [] (countProperties r.properties [] []), 2,
      [lit "Parsed: " ++ lit "a"] ++ [lit "unable to read file " ++ lit "c" ++ lit ": " ++ lit "x"]
        ++ [lit "Parsed: " ++ lit "b"]⟩, ?_, rfl, eq_of_beq h⟩
    rw [counterFiles, counterFile]
    simp only [List.nil_append, q]
    rw [counterFiles, counterFile]
    simp only
    rw [counterFiles, counterFile]
    simp only [List.nil_append, q]
    rw [counterFiles]

end

/-! ## C62: `ping.rs` -/

section
variable {env : Env} {data : List Byte} {r : Replay}

/-- A replay that has both objects: the program ends with the groups of some entries, whose names
and pings are from the file. -/
theorem ping_entries (hs : data.length ≤ env.isizeMax) (h : parseWith .onError .always env data = .ok r)
    {nameId pingId : ObjectId}
    (hn : findObjectId r.objects "Engine.PlayerReplicationInfo:PlayerName" = some nameId)
    (hp : findObjectId r.objects "Engine.PlayerReplicationInfo:Ping" = some pingId) :
    ∃ l, pingUpdates nameId pingId [] ((updatesOf r).map Prod.snd) = .ok l ∧
      pingMain env data = (pingGroup l, .success) ∧
      ∀ e ∈ l, EntryFrom (Announced r) (fun p => ∃ t u, (t, u) ∈ updatesOf r ∧
        objectOf r u = some playerPing ∧ u.attr = .byte p) e := by
  obtain ⟨n, hf⟩ := (must_ok .onError env data r h).2
  have hl := objects_short hs h
  have hu : ∀ u, u ∈ (updatesOf r).map Prod.snd → ∃ t, (t, u) ∈ updatesOf r := by
    intro u hu
    obtain ⟨⟨t, _⟩, hm, rfl⟩ := List.mem_map.1 hu
    exact ⟨t, hm⟩
  obtain ⟨l, h1, h2⟩ := pingUpdates_ok (N := Announced r)
    (P := fun p => ∃ t u, (t, u) ∈ updatesOf r ∧ objectOf r u = some playerPing ∧ u.attr = .byte p)
    (nameId := nameId) (pingId := pingId) ((updatesOf r).map Prod.snd)
    (fun u hm he => by
      obtain ⟨t, ht⟩ := hu u hm
      exact name_updates hs h ht (by unfold objectOf; rw [he]; exact findObjectId_some hl hn))
    (fun u hm _ he => by
      obtain ⟨t, ht⟩ := hu u hm
      have ho : objectOf r u = some playerPing := by
        unfold objectOf; rw [he]; exact findObjectId_some hl hp
      have hty := typed_update hs h playerPing_tag ht ho
      generalize ha : u.attr = a at hty
      cases hty
      exact ⟨_, rfl, t, u, ht, ho, ha⟩) [] (fun e he => by cases he)
  refine ⟨l, h1, ?_, h2⟩
  have h' : ParserBuilder.new.onErrorCheckCrc.mustParseNetworkData.parse env data = .ok r := h
  rw [updatesOf_snd hf] at h1
  unfold pingMain
  rw [h']
  simp only [hn, hp, hf, h1]

/-- C62. No file makes the program panic, and none has an update of the wrong kind: the only errors
are those of the parser and that an object is not listed. -/
theorem ping_safe (hs : Small env data) :
    (∃ e, parseWith .onError .always env data = .err e ∧ pingMain env data = ([], .parse e)) ∨
    ∃ r, parseWith .onError .always env data = .ok r ∧
      ((playerName ∈ r.objects ∧ playerPing ∈ r.objects ∧ (pingMain env data).2 = .success) ∨
       (playerName ∉ r.objects ∧ pingMain env data = ([], .failed
          "Expected Engine.PlayerReplicationInfo:PlayerName to be present in replay")) ∨
       (playerName ∈ r.objects ∧ playerPing ∉ r.objects ∧ pingMain env data = ([], .failed
          "Expected Engine.PlayerReplicationInfo:Ping to be present in replay"))) := by
  cases h : parseWith .onError .always env data with
  | fault f => exact absurd h (no_panic .onError .always env data hs f)
  | err e =>
    have h' : ParserBuilder.new.onErrorCheckCrc.mustParseNetworkData.parse env data = .err e := h
    exact .inl ⟨e, rfl, by unfold pingMain; rw [h']⟩
  | ok r =>
    have h' : ParserBuilder.new.onErrorCheckCrc.mustParseNetworkData.parse env data = .ok r := h
    have hl := objects_short hs.len h
    refine .inr ⟨r, rfl, ?_⟩
    cases hn : findObjectId r.objects "Engine.PlayerReplicationInfo:PlayerName" with
    | none =>
      refine .inr (.inl ⟨findObjectId_none.1 hn, ?_⟩)
      unfold pingMain
      rw [h']
      simp only [hn]
    | some nameId =>
      have mn : playerName ∈ r.objects := List.mem_of_getElem? (findObjectId_some hl hn)
      cases hp : findObjectId r.objects "Engine.PlayerReplicationInfo:Ping" with
      | none =>
        refine .inr (.inr ⟨mn, findObjectId_none.1 hp, ?_⟩)
        unfold pingMain
        rw [h']
        simp only [hn, hp]
      | some pingId =>
        obtain ⟨l, _, h2, _⟩ := ping_entries hs.len h hn hp
        exact .inl ⟨mn, List.mem_of_getElem? (findObjectId_some hl hp), by rw [h2]⟩

/-- C62. What is printed is from the file: every name is announced or `<unknown>`, every ping is one
of the network data.  The full statement, `PingsListed`, is false: `pings_listed_false`. -/
theorem ping_sound_partial (hs : data.length ≤ env.isizeMax) (h : parseWith .onError .always env data = .ok r)
    {k : Str} {ps : List Byte} (hm : (k, ps) ∈ (pingMain env data).1) :
    (Announced r k ∨ k = "<unknown>".toList) ∧ ∀ p ∈ ps, ∃ t u, (t, u) ∈ updatesOf r ∧
      objectOf r u = some playerPing ∧ u.attr = .byte p := by
  have h' : ParserBuilder.new.onErrorCheckCrc.mustParseNetworkData.parse env data = .ok r := h
  cases hn : findObjectId r.objects "Engine.PlayerReplicationInfo:PlayerName" with
  | none => unfold pingMain at hm; rw [h'] at hm; simp only [hn] at hm; cases hm
  | some nameId =>
    cases hp : findObjectId r.objects "Engine.PlayerReplicationInfo:Ping" with
    | none => unfold pingMain at hm; rw [h'] at hm; simp only [hn, hp] at hm; cases hm
    | some pingId =>
      obtain ⟨l, _, h2, h3⟩ := ping_entries hs h hn hp
      rw [h2] at hm
      obtain ⟨⟨e, he, hk⟩, rfl⟩ := ((pingGroup_grouped l).mem k ps).1 hm
      refine ⟨?_, fun p hp => ?_⟩
      · unfold keyOf at hk
        cases hx : e.name with
        | none => rw [hx] at hk; exact .inr hk.symm
        | some m => rw [hx] at hk; exact .inl (hk ▸ (h3 e he).name m hx)
      · obtain ⟨x, hx, hpx⟩ := List.mem_flatMap.1 hp
        exact (h3 x (List.mem_filter.1 (List.mem_of_mem_drop hx)).1).pings p hpx

/-- The pings of the first entry of each name are not printed. -/
theorem ping_groups (l : List PlayerPings) (k : Str) (ps : List Byte) :
    (k, ps) ∈ pingGroup l ↔ (∃ e ∈ l, keyOf e = k) ∧
      ps = ((l.filter (fun e => keyOf e = k)).drop 1).flatMap PlayerPings.pings :=
  (pingGroup_grouped l).mem k ps

/-- The entry changed is as far from the end as the first of the actor is from the beginning. -/
theorem ping_place (l : List PlayerPings) (a : ActorId) (b : Byte) (i : Nat)
    (h : l.findIdx? (fun x => x.actorId == a) = some i) : ∃ e, l[l.length - 1 - i]? = some e ∧
      pingPing l a b = .ok (l.set (l.length - 1 - i) { e with pings := e.pings ++ [b] }) := by
  have hi : i < l.length := (List.findIdx?_eq_some_iff_getElem.1 h).1
  have hj : l.length - 1 - i < l.length := by omega
  refine ⟨l[l.length - 1 - i], List.getElem?_eq_getElem hj, ?_⟩
  unfold pingPing
  rw [rposition_reverse, h]
  simp only [Option.map_some, List.getElem?_eq_getElem hj]

theorem orderly_entries {nameId pingId : ObjectId}
    (hn : ∀ u, u.objectId = nameId ↔ objectOf r u = some playerName)
    (hp : ∀ u, u.objectId = pingId ↔ objectOf r u = some playerPing)
    (us : List UpdatedAttribute) : ∀ (done : List UpdatedAttribute) (l : List PlayerPings),
      l.map (fun e => (e.actorId, e.name)) =
        (announcements r done).map (fun x => (x.1, some x.2)) →
      Orderly r (done ++ us) →
      ∀ l', pingUpdates nameId pingId l us = .ok l' →
        l'.map (fun e => (e.actorId, e.name)) =
          (announcements r (done ++ us)).map (fun x => (x.1, some x.2)) := by
  induction us with
  | nil =>
    intro done l hl _ l' h
    rw [pingUpdates] at h
    cases h
    rw [List.append_nil]; exact hl
  | cons u us ih =>
    intro done l hl ho l' h
    rw [pingUpdates] at h
    have split : done ++ u :: us = (done ++ [u]) ++ us := by
      rw [List.append_assoc, List.singleton_append]
    have ann : announcements r (done ++ [u]) = announcements r done ++ announcements r [u] :=
      List.filterMap_append
    cases hs : pingUpdate nameId pingId l u with
    | err e => rw [hs] at h; cases h
    | fault f => rw [hs] at h; cases h
    | ok l1 =>
      rw [hs] at h
      rw [split] at ho ⊢
      refine ih (done ++ [u]) l1 ?_ ho l' h
      unfold pingUpdate at hs
      have acts : l.map (fun e => e.actorId) = (announcements r done).map Prod.fst := by
        have := congrArg (List.map Prod.fst) hl
        rw [List.map_map, List.map_map] at this
        exact this
      by_cases h1 : u.objectId = nameId
      · rw [if_pos h1] at hs
        cases ha : u.attr with
        | string m =>
          rw [ha] at hs
          have hau : announcements r [u] = [(u.actorId, m)] := by
            unfold announcements
            rw [List.filterMap_cons, ha]
            simp only [(hn u).1 h1, if_true, List.filterMap_nil]
          have hnew : u.actorId ∉ l.map (fun e => e.actorId) := by
            rw [acts]
            have hd := ho.actors
            rw [show announcements r (done ++ [u] ++ us) =
              announcements r (done ++ [u]) ++ announcements r us from List.filterMap_append,
              ann, hau, List.map_append, List.map_append] at hd
            have := (List.nodup_append.1 hd).1
            have := (List.nodup_append.1 this).2.2
            exact fun hm => this _ hm _ (by simp) rfl
          have hr : rposition (fun x => x.actorId == u.actorId &&
              (x.name.isNone || x.name == some m)) l.reverse = none := by
            rw [rposition_reverse, List.findIdx?_eq_none_iff.2, Option.map_none]
            intro x hx
            have : x.actorId ≠ u.actorId := fun he => hnew (List.mem_map.2 ⟨x, hx, he⟩)
            rw [beq_eq_false_iff_ne.2 this, Bool.false_and]
          simp only [pingName, hr] at hs
          cases hs
          rw [ann, hau, List.map_append, List.map_append, hl]
          rfl
        | _ => rw [ha] at hs; cases hs
      · rw [if_neg h1] at hs
        have hau : announcements r [u] = [] := by
          unfold announcements
          rw [List.filterMap_cons]
          have : objectOf r u ≠ some playerName := fun h => h1 ((hn u).2 h)
          cases u.attr <;> simp [this]
        rw [ann, hau, List.append_nil, ← hl]
        by_cases h2 : u.objectId = pingId
        · rw [if_pos h2] at hs
          cases ha : u.attr with
          | byte b =>
            rw [ha] at hs
            have hmem : u.actorId ∈ l.map (fun e => e.actorId) := by
              rw [acts]
              exact ho.before done u us split.symm ((hp u).1 h2)
            cases hi : l.findIdx? (fun x => x.actorId == u.actorId) with
            | none =>
              obtain ⟨x, hx, he⟩ := List.mem_map.1 hmem
              have := List.findIdx?_eq_none_iff.1 hi x hx
              rw [beq_iff_eq.2 he] at this
              cases this
            | some i =>
              obtain ⟨e, he, hpp⟩ := ping_place l u.actorId b i hi
              simp only [hpp] at hs
              cases hs
              rw [List.map_set]
              have hj : (l.map (fun e => (e.actorId, e.name)))[l.length - 1 - i]? =
                  some (e.actorId, e.name) := by rw [List.getElem?_map, he]; rfl
              obtain ⟨hlt, heq⟩ := List.getElem?_eq_some_iff.1 hj
              rw [← heq]
              exact List.set_getElem_self hlt
          | _ => rw [ha] at hs; cases hs
        · rw [if_neg h2] at hs
          cases hs
          rfl

/-- C62, false of the code: in a replay where everyone is announced once, before their first ping,
and under different names, the players are listed, but all without a ping. -/
theorem ping_nothing (hs : data.length ≤ env.isizeMax) (h : parseWith .onError .always env data = .ok r)
    (hn : playerName ∈ r.objects) (hp : playerPing ∈ r.objects) (on : Once r.objects playerName)
    (op : Once r.objects playerPing) (ho : Orderly r ((updatesOf r).map Prod.snd)) (k : Str)
    (ps : List Byte) : (k, ps) ∈ (pingMain env data).1 ↔ Announced r k ∧ ps = [] := by
  have hl := objects_short hs h
  cases hn' : findObjectId r.objects "Engine.PlayerReplicationInfo:PlayerName" with
  | none => exact absurd hn (findObjectId_none.1 hn')
  | some nameId =>
    cases hp' : findObjectId r.objects "Engine.PlayerReplicationInfo:Ping" with
    | none => exact absurd hp (findObjectId_none.1 hp')
    | some pingId =>
      obtain ⟨l, h1, h2, _⟩ := ping_entries hs h hn' hp'
      have ids : ∀ {name : String} {id : ObjectId}, Once r.objects (lit name) →
          findObjectId r.objects name = some id → ∀ u : UpdatedAttribute,
          (u.objectId = id ↔ objectOf r u = some (lit name)) := by
        intro name id o hf u
        unfold objectOf
        rw [← findObjectId_iff hl o u.objectId, hf, Option.some.injEq]
        exact eq_comm
      have he := orderly_entries (ids on hn') (ids op hp') _ [] [] rfl ho l h1
      rw [List.nil_append] at he
      have names : l.map keyOf = (announcements r ((updatesOf r).map Prod.snd)).map Prod.snd := by
        have := congrArg (List.map (fun x : ActorId × Option Str => x.2.getD (lit "<unknown>"))) he
        rw [List.map_map, List.map_map] at this
        exact this
      have nd : (l.map keyOf).Nodup := names ▸ ho.names
      have short : ∀ k, (l.filter (fun e => keyOf e = k)).length ≤ 1 := by
        intro k
        have := List.nodup_iff_count.1 nd k
        rw [List.count_eq_countP, List.countP_map, List.countP_eq_length_filter] at this
        refine le_trans (le_of_eq ?_) this
        congr 2
        funext e
        simp only [Function.comp, beq_eq_decide]
      rw [h2, ping_groups l k ps, List.drop_eq_nil_of_le (short k), List.flatMap_nil]
      refine and_congr_left' ?_
      have hk : (∃ e ∈ l, keyOf e = k) ↔ k ∈ l.map keyOf := List.mem_map.symm
      rw [hk, names, List.mem_map]
      unfold announcements Announced
      constructor
      · rintro ⟨⟨a, m⟩, hm, rfl⟩
        obtain ⟨u, hu, hx⟩ := List.mem_filterMap.1 hm
        obtain ⟨⟨t, v⟩, hv, rfl⟩ := List.mem_map.1 hu
        refine ⟨t, v, hv, ?_⟩
        simp only at hx
        split at hx
        · rename_i s hs'
          split at hx
          · rename_i ho'
            cases hx
            exact ⟨ho', hs'⟩
          · cases hx
        · cases hx
      · rintro ⟨t, u, hu, ho', ha⟩
        refine ⟨(u.actorId, k), List.mem_filterMap.2 ⟨u, List.mem_map.2 ⟨_, hu, rfl⟩, ?_⟩, rfl⟩
        rw [ha]
        simp only [ho', if_true]

set_option maxRecDepth 100000 in
/-- The sample with two players and three pings. -/
theorem ping_players : pingMain Env.default64 players =
    ([("A".toList, []), ("B".toList, [])], .success) := by
  decide +kernel

theorem players_small : Small Env.default64 players :=
  small64 rfl (by have : players.length ≤ 1000 := by decide +kernel
                  omega)

/-- The updates of the sample. -/
theorem players_updates {r : Replay} {n : NetworkFrames} (hn : r.networkFrames = some n)
    (h : n.frames.map (fun f => f.updatedActors) = playersUpdates) :
    (updatesOf r).map Prod.snd = playersUpdates.flatten := by
  rw [updatesOf_snd hn, ← h, List.flatMap_def]

theorem once_of_nodup {objects : List Str} (h : objects.Nodup) (name : Str) : Once objects name := by
  intro i j hi hj
  obtain ⟨h1, e1⟩ := List.getElem?_eq_some_iff.1 hi
  obtain ⟨h2, e2⟩ := List.getElem?_eq_some_iff.1 hj
  exact (List.Nodup.getElem_inj_iff h).1 (e1.trans e2.symm)

theorem playersObjects_nodup : playersObjects.Nodup := by decide +kernel

theorem orderly_congr {r r' : Replay} (h : r.objects = r'.objects) {us : List UpdatedAttribute}
    (ho : Orderly r us) : Orderly r' us := by
  have hob : objectOf r = objectOf r' := by funext u; unfold objectOf; rw [h]
  have ha : announcements r = announcements r' := by
    funext us; unfold announcements; rw [hob]
  obtain ⟨h1, h2, h3⟩ := ho
  rw [hob] at h3
  rw [ha] at h1 h2 h3
  exact ⟨h1, h2, h3⟩

/-- A replay with the objects of the sample and nothing else. -/
def playersEmpty : Replay where
  headerSize := 0
  headerCrc := 0
  majorVersion := 0
  minorVersion := 0
  netVersion := none
  gameType := []
  properties := []
  contentSize := 0
  contentCrc := 0
  networkFrames := none
  levels := []
  keyframes := []
  debugInfo := []
  tickMarks := []
  packages := []
  objects := playersObjects
  names := []
  classIndices := []
  netCache := []

/-- The sample satisfies the hypotheses of `ping_nothing`. -/
theorem players_orderly {r : Replay} {n : NetworkFrames} (h : r.objects = playersObjects)
    (hn : r.networkFrames = some n)
    (hf : n.frames.map (fun f => f.updatedActors) = playersUpdates) :
    Orderly r ((updatesOf r).map Prod.snd) ∧ (∀ name, Once r.objects name) ∧
      playerName ∈ r.objects ∧ playerPing ∈ r.objects := by
  refine ⟨?_, fun name => h ▸ once_of_nodup playersObjects_nodup name, ?_, ?_⟩
  · rw [players_updates hn hf]
    refine orderly_congr (r := playersEmpty) h.symm ⟨by decide +kernel, by decide +kernel, ?_⟩
    have all : ∀ i < 7, ∀ u, playersUpdates.flatten[i]? = some u →
        objectOf playersEmpty u = some playerPing →
        u.actorId ∈ (announcements playersEmpty (playersUpdates.flatten.take i)).map Prod.fst := by
      have : ∀ i < 7, (match playersUpdates.flatten[i]? with
        | some u => decide (objectOf playersEmpty u = some playerPing →
            u.actorId ∈ (announcements playersEmpty (playersUpdates.flatten.take i)).map Prod.fst)
        | none => true) = true := by decide +kernel
      intro i hi u hu
      have := this i hi
      rw [hu] at this
      exact of_decide_eq_true this
    intro pre u post he ho
    have hlen : playersUpdates.flatten.length = 7 := by decide +kernel
    have := all pre.length (by rw [← hlen, he]; simp) u (by rw [he]; simp) ho
    rw [he, List.take_left] at this
    exact this
  · rw [h]; decide +kernel
  · rw [h]; decide +kernel

/-- C62, false of the code: the pings of A are 10 and 11. -/
theorem pings_listed_false : ∃ data r, Small Env.default64 data ∧
    parseWith .onError .always Env.default64 data = .ok r ∧
    ¬PingsListed r (pingMain Env.default64 data).1 := by
  obtain ⟨r, n, h1, h2, h3, h4, h5⟩ := players_ok
  refine ⟨players, r, players_small, h1, fun hl => ?_⟩
  have hus := players_updates h3 h4
  have hu : ∀ t u, (t, u) ∈ updatesOf r → u ∈ playersUpdates.flatten := fun t u hm => by
    rw [← hus]; exact List.mem_map.2 ⟨_, hm, rfl⟩
  have hob : ∀ u : UpdatedAttribute, objectOf r u = playersObjects[u.objectId.toNat]? := fun u => by
    unfold objectOf; rw [h2]
  have all : ∀ u ∈ playersUpdates.flatten, playersObjects[u.objectId.toNat]? = some playerName →
      ∀ x, u.attr = .string x → (u.actorId = 5 ↔ x = "A".toList) := by
    have : ∀ u ∈ playersUpdates.flatten, (match u.attr with
      | .string x => decide (u.actorId = 5) == decide (x = "A".toList) | _ => true) = true := by
      decide +kernel
    intro u hu _ x hx
    have := this u hu
    rw [hx] at this
    simpa using this
  have hA := hl 5 "A".toList (fun t u x hm ho hx => all u (hu t u hm) (by rw [← hob]; exact ho) x hx)
    (by
      have : (⟨5, 0, 2, .string "A".toList⟩ : UpdatedAttribute) ∈ (updatesOf r).map Prod.snd := by
        rw [hus]; decide +kernel
      obtain ⟨⟨t, u⟩, hm, rfl⟩ := List.mem_map.1 this
      exact ⟨t, _, hm, rfl, by rw [hob]; decide +kernel, rfl⟩)
  rw [ping_players] at hA
  have hf : ((updatesOf r).filterMap fun x => match x.2.attr with
      | .byte p => if x.2.actorId = 5 ∧ objectOf r x.2 = some playerPing then some p else none
      | _ => none) = [10, 11] := by
    have : ((updatesOf r).filterMap fun x => match x.2.attr with
        | .byte p => if x.2.actorId = 5 ∧ objectOf r x.2 = some playerPing then some p else none
        | _ => none) = ((updatesOf r).map Prod.snd).filterMap (fun u => match u.attr with
        | .byte p => if u.actorId = 5 ∧ playersObjects[u.objectId.toNat]? = some playerPing
          then some p else none
        | _ => none) := by
      rw [List.filterMap_map]
      refine List.filterMap_congr fun x _ => ?_
      simp only [Function.comp, hob]
    rw [this, hus]
    decide +kernel
  have hA' : ("A".toList, ([10, 11] : List Byte)) ∈
      [(("A".toList : Str), ([] : List Byte)), ("B".toList, [])] := by rw [← hf]; exact hA
  revert hA'
  decide +kernel

/-- Announcing A again renames B: then B is not listed at all. -/
theorem ping_renamed :
    (match pingUpdates 2 3 [] [⟨5, 0, 2, .string "A".toList⟩, ⟨6, 0, 2, .string "B".toList⟩,
        ⟨5, 0, 2, .string "A".toList⟩] with
      | .ok l => pingGroup l == [("A".toList, [])]
      | _ => false) = true := by
  decide +kernel

end

/-! ## C63: `demo.rs` -/

section
variable {env : Env} {data : List Byte} {r : Replay}

theorem ids_of (hl : r.objects.length < 2 ^ 32)
    (ho : ∀ name ∈ playerName :: carPlayer :: demolitionNames, Once r.objects name) :
    IdsOf r (demoIds r.objects) := by
  have ids : ∀ (name : String), Once r.objects (lit name) → ∀ u : UpdatedAttribute,
      (some u.objectId = findObjectId r.objects name ↔ objectOf r u = some (lit name)) := by
    intro name o u
    unfold objectOf
    rw [← findObjectId_iff hl o u.objectId]
    exact eq_comm
  refine ⟨ids _ (ho _ ?_), ids _ (ho _ ?_), ids _ (ho _ ?_), ids _ (ho _ ?_), ids _ (ho _ ?_),
    ids _ (ho _ ?_)⟩
  · exact List.mem_cons_self
  · exact List.mem_cons_of_mem _ List.mem_cons_self
  · exact List.mem_cons_of_mem _ (List.mem_cons_of_mem _ List.mem_cons_self)
  · exact List.mem_cons_of_mem _ (List.mem_cons_of_mem _ (List.mem_cons_of_mem _ List.mem_cons_self))
  · exact List.mem_cons_of_mem _ (List.mem_cons_of_mem _ (List.mem_cons_of_mem _
      (List.mem_cons_of_mem _ List.mem_cons_self)))
  · exact List.mem_cons_of_mem _ (List.mem_cons_of_mem _ (List.mem_cons_of_mem _
      (List.mem_cons_of_mem _ (List.mem_cons_of_mem _ List.mem_cons_self))))

/-- C63. One line for each demolition, in the order of the network data, with the time of the frame
and what attacker and victim are called at the end of the replay. -/
theorem demo_run (hs : data.length ≤ env.isizeMax) (h : parseWith .onError .always env data = .ok r)
    (ho : ∀ name ∈ playerName :: carPlayer :: demolitionNames, Once r.objects name) :
    (demoMain env data).2 = .success ∧
    List.Forall₂ (DemolitionLine r)
      ((updatesOf r).filterMap fun p => (demolition r p.2).map fun d => (p.1, d))
      (demoMain env data).1 := by
  obtain ⟨n, hf⟩ := (must_ok .onError env data r h).2
  have h' : ParserBuilder.new.onErrorCheckCrc.mustParseNetworkData.parse env data = .ok r := h
  have hi := demoFrames_inv (ids_of (objects_short hs h) ho) hf
  unfold demoMain
  rw [h']
  simp only [hf, true_and]
  generalize Examples.demoFrames (demoIds r.objects) ⟨[], [], []⟩ n.frames = st at hi
  have he : st.events = ((updatesOf r).filterMap fun p => (demolition r p.2).map fun d =>
      (p.1, d)).map (fun x => (⟨x.1, x.2.1, x.2.2⟩ : DemoEvent)) := by
    rw [hi.events, List.map_filterMap]
    refine List.filterMap_congr fun p _ => ?_
    cases demolition r p.2 <;> rfl
  rw [he, List.map_map, List.forall₂_map_right_iff]
  exact List.forall₂_same.2 fun d _ =>
    ⟨rfl, resolveName_called hi d.2.1, resolveName_called hi d.2.2⟩

/-- C63. A file that is rejected ends the program with the error of the parser; it never panics. -/
theorem demo_rejected (hs : Small env data) :
    (∀ e, parseWith .onError .always env data = .err e → demoMain env data = ([], .parse e)) ∧
    ∀ f, (demoMain env data).2 ≠ .fault f := by
  constructor
  · intro e h
    have h' : ParserBuilder.new.onErrorCheckCrc.mustParseNetworkData.parse env data = .err e := h
    unfold demoMain
    rw [h']
  · intro f
    unfold demoMain
    cases h : ParserBuilder.new.onErrorCheckCrc.mustParseNetworkData.parse env data with
    | err e => exact fun h => by cases h
    | fault g => exact absurd h (no_panic .onError .always env data hs g)
    | ok r =>
      obtain ⟨n, hf⟩ := (must_ok .onError env data r h).2
      simp only [hf]
      exact fun h => by cases h

/-- C63. What an actor is called is determined. -/
theorem called_unique (a : ActorId) (m m' : Str) (h : CalledAtEnd r a m) (h' : CalledAtEnd r a m') :
    m = m' := by
  cases h <;> cases h' <;> first | rfl | contradiction | grind [Last]

/-- C63. Every update of one of these objects is a demolition. -/
theorem demo_complete (hs : data.length ≤ env.isizeMax) (h : parseWith .onError .always env data = .ok r)
    {t : F32} {u : UpdatedAttribute} (hu : (t, u) ∈ updatesOf r) {name : Str}
    (hm : name ∈ demolitionNames) (ho : objectOf r u = some name) : ∃ d, demolition r u = some d := by
  have t1 : attributeTag "TAGame.Car_TA:ReplicatedDemolish".toList = some .demolish := by
    decide +kernel
  have t2 : attributeTag "TAGame.Car_TA:ReplicatedDemolishGoalExplosion".toList =
    some .demolishFx := by decide +kernel
  have t3 : attributeTag "TAGame.Car_TA:ReplicatedDemolish_CustomFX".toList =
    some .demolishFx := by decide +kernel
  have t4 : attributeTag "TAGame.Car_TA:ReplicatedDemolishExtended".toList =
    some .demolishExtended := by decide +kernel
  unfold demolition
  rw [ho]
  rcases List.mem_cons.1 hm with rfl | hm
  · have := typed_update hs h t1 hu ho
    generalize u.attr = a at this
    cases this
    exact ⟨_, if_pos rfl⟩
  rcases List.mem_cons.1 hm with rfl | hm
  · have := typed_update hs h t2 hu ho
    generalize u.attr = a at this
    cases this
    exact ⟨_, if_pos (.inl rfl)⟩
  rcases List.mem_cons.1 hm with rfl | hm
  · have := typed_update hs h t3 hu ho
    generalize u.attr = a at this
    cases this
    exact ⟨_, if_pos (.inr rfl)⟩
  rw [List.mem_singleton] at hm
  subst hm
  have := typed_update hs h t4 hu ho
  generalize u.attr = a at this
  cases this
  exact ⟨_, if_pos rfl⟩

set_option maxRecDepth 100000 in
/-- The sample with two players: B is known by the car. -/
theorem demo_players : demoMain Env.default64 players =
    ([⟨0x3fc00000, "A".toList, "B".toList⟩], .success) := by
  decide +kernel

end
end Boxcars.Props
