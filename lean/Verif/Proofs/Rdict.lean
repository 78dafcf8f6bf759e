import Verif.Proofs.Grammar
/-!
# Header properties, header and body against the grammar
-/
namespace Boxcars
open Spec

variable {N : Nat}

/-- The outcome of `propValue`: a property, or `none` for a skipped byte property. -/
def PropOut (q : Bool) (kind : Str) : Option HeaderProp → Bytes → Prop
  | some v, bs => PropVal q kind v bs
  | none, bs => kind = lit "ByteProperty" ∧ q = false ∧
      ∃ b3 x, StrField (lit "None") b3 ∧ bs = b3 ++ [x]

theorem boolProp_spec (d : List Byte) (hd : d ≠ []) : PSpec N (boolProp d)
    (ofG fun v bs => v = .bool (d.head? == some 1#8) ∧ bs = []) := by
  cases d with
  | nil => exact (hd rfl).elim
  | cons b d =>
    refine (PSpec.pureG (N := N) (HeaderProp.bool (b == 1#8))).congrG fun v bs => ?_
    simp

theorem boolProp_take_spec (n : Nat) (hn : n ≠ 0) (hn' : n < 2 ^ 31) :
    PSpec N (do let d ← takeData n; some <$> boolProp d)
      (ofG fun v bs => bs.length = n ∧ v = some (.bool (bs.head? == some 1#8))) := by
  refine ((PSpec.takeDataG n (.inl hn')).seq (g' := fun d v bs => v = some (.bool (d.head? == some 1#8)) ∧ bs = [])
    ?_).congrG fun v bs => ?_
  · rintro a bs _ ⟨rfl, h⟩
    refine ((boolProp_spec a (by rintro rfl; exact hn h.symm)).mapG some).congrG fun v bs => ?_
    constructor
    · rintro ⟨_, ⟨rfl, rfl⟩, rfl⟩; exact ⟨rfl, rfl⟩
    · rintro ⟨rfl, rfl⟩; exact ⟨_, ⟨rfl, rfl⟩, rfl⟩
  · constructor
    · rintro ⟨_, _, _, ⟨rfl, h⟩, ⟨rfl, rfl⟩, rfl⟩
      rw [List.append_nil]; exact ⟨h, rfl⟩
    · rintro ⟨h, rfl⟩
      exact ⟨bs, bs, [], ⟨rfl, h⟩, ⟨rfl, rfl⟩, (List.append_nil _).symm⟩

/-- A parser followed by a constructor. -/
theorem PSpec.someG {α β : Type} {m : P α} {g : α → Bytes → Prop} (f : α → β) (h : PSpec N m (ofG g)) :
    PSpec N (do let a ← m; Pure.pure (f a)) (ofG fun b bs => ∃ a, g a bs ∧ b = f a) :=
  h.mapG f

theorem lit_inj {a b : String} : lit a = lit b ↔ a = b := String.toList_inj

/-- The layout flag of a mode. -/
def ParserMode.isQuirks : ParserMode → Bool
  | .standard => false
  | .quirks => true

theorem listLen {xs : List α} {size : I32} (h : xs.length ≤ 25000) :
    (0 ≤ size.toInt ∧ xs.length = size.toNat) ↔ size = BitVec.ofNat 32 xs.length :=
  size_iff size xs.length (by omega)

theorem propValue_spec {recur : P (List (Str × HeaderProp))} {mode : ParserMode} {kind : Str}
    (h : PSpec N recur (ofG (PropList mode.isQuirks))) :
    PSpec N (propValue recur mode kind) (ofG (PropOut mode.isQuirks kind)) := by
  unfold propValue
  split
  · rename_i hk
    cases mode with
    | standard =>
      refine (boolProp_take_spec 1 (by decide) (by decide)).congrG fun v bs => ?_
      constructor
      · rintro ⟨h1, rfl⟩
        match bs, h1 with
        | [b], _ =>
          show PropVal _ _ _ _
          rw [hk]
          simp only [List.head?_cons, Option.some_beq_some]
          exact PropVal.bool b rfl
      · intro hv
        cases v with
        | none => exact absurd (hk.symm.trans hv.1) (by rw [lit_inj]; decide)
        | some v =>
          cases hv with
          | bool b => exact ⟨rfl, by simp⟩
          | boolQuirks _ _ _ _ hq => cases hq
          | _ => exact absurd hk (by rw [lit_inj]; decide)
    | quirks =>
      refine (boolProp_take_spec 4 (by decide) (by decide)).congrG fun v bs => ?_
      constructor
      · rintro ⟨h1, rfl⟩
        match bs, h1 with
        | [b, b1, b2, b3], _ =>
          show PropVal _ _ _ _
          rw [hk]
          simp only [List.head?_cons, Option.some_beq_some]
          exact PropVal.boolQuirks b b1 b2 b3 rfl
      · intro hv
        cases v with
        | none => exact absurd (hk.symm.trans hv.1) (by rw [lit_inj]; decide)
        | some v =>
          cases hv with
          | boolQuirks b => exact ⟨rfl, by simp⟩
          | bool _ hq => cases hq
          | _ => exact absurd hk (by rw [lit_inj]; decide)
  · split
    · rename_i hk
      cases mode with
      | standard =>
        refine (parseStr_spec.seq' (g' := fun k v bs =>
          (k = lit "None" ∧ v = none ∧ bs.length = 1) ∨
          (k ≠ lit "None" ∧ ∃ w, StrField w bs ∧ v = some (.byte k (some w)))) fun k => ?_).congrG
            fun v bs => ?_
        · split
          · rename_i hn
            refine ((PSpec.takeDataG 1 (.inl (by decide))).seq' fun _ => PSpec.pureG none).congrG fun v bs => ?_
            constructor
            · rintro ⟨_, _, _, ⟨rfl, h⟩, ⟨rfl, rfl⟩, rfl⟩
              rw [List.append_nil]; exact .inl ⟨hn, rfl, h⟩
            · rintro (⟨_, rfl, h⟩ | ⟨h, _⟩)
              · exact ⟨bs, bs, [], ⟨rfl, h⟩, ⟨rfl, rfl⟩, (List.append_nil _).symm⟩
              · exact (h hn).elim
          · rename_i hn
            refine (parseStr_spec.someG _).congrG fun v bs => ?_
            constructor
            · rintro ⟨w, hw, rfl⟩; exact .inr ⟨hn, w, hw, rfl⟩
            · rintro (⟨h, _⟩ | ⟨_, h⟩)
              · exact (hn h).elim
              · exact h
        · constructor
          · rintro ⟨k, b1, b2, h1, ⟨rfl, rfl, h2⟩ | ⟨hn, w, hw, rfl⟩, rfl⟩
            · match b2, h2 with
              | [x], _ => exact ⟨hk, rfl, b1, x, h1, rfl⟩
            · show PropVal _ _ _ _
              rw [hk]; exact .byte rfl hn h1 hw
          · intro hv
            cases v with
            | none =>
              obtain ⟨_, _, b3, x, h1, rfl⟩ := hv
              exact ⟨_, b3, [x], h1, .inl ⟨rfl, rfl, rfl⟩, rfl⟩
            | some v =>
              cases hv with
              | @byte k w b1 b2 hq hn h1 h2 =>
                exact ⟨k, b1, b2, h1, .inr ⟨hn, w, h2, rfl⟩, rfl⟩
              | byteQuirks hq => cases hq
              | _ => exact absurd hk (by rw [lit_inj]; decide)
      | quirks =>
        refine (parseText_spec.someG _).congrG fun v bs => ?_
        constructor
        · rintro ⟨k, h1, rfl⟩
          show PropVal _ _ _ _
          rw [hk]; exact .byteQuirks rfl h1
        · intro hv
          cases v with
          | none => exact absurd hv.2.1 (by decide)
          | some v =>
            cases hv with
            | byte hq => cases hq
            | byteQuirks _ h1 => exact ⟨_, h1, rfl⟩
            | _ => exact absurd hk (by rw [lit_inj]; decide)
    · rename_i hbyte
      split
      · rename_i hk
        refine ((takeI32_spec _).seq' fun size =>
          PSpec.usizeG size (fun n _ hM _ => (repeatP_spec n (h.mono hM)).someG _) ?_).congrG fun v bs => ?_
        · rintro n hn a bs _ ⟨xs, ⟨h1, _⟩, _⟩; omega
        · constructor
          · rintro ⟨size, _, b2, rfl, ⟨h0, xs, ⟨h1, h2, h3⟩, rfl⟩, rfl⟩
            show PropVal _ _ _ _
            rw [(listLen (h2 ▸ h1)).1 ⟨h0, h2⟩, hk]
            exact .array (h2 ▸ h1) h3
          · intro hv
            cases v with
            | none => exact (hbyte hv.1).elim
            | some v =>
              cases hv with
              | @array xs body h1 h2 =>
                have := (listLen h1).2 rfl
                exact ⟨_, _, body, rfl, ⟨this.1, xs, ⟨this.2 ▸ h1, this.2, h2⟩, rfl⟩, rfl⟩
              | _ => exact absurd hk (by rw [lit_inj]; decide)
      · split
        · rename_i hk
          refine (take32_spec.someG _).congrG fun v bs => ?_
          constructor
          · rintro ⟨x, rfl, rfl⟩
            show PropVal _ _ _ _
            rw [hk]; exact .float x
          · intro hv
            cases v with
            | none => exact (hbyte hv.1).elim
            | some v =>
              cases hv with
              | float x => exact ⟨x, rfl, rfl⟩
              | _ => exact absurd hk (by rw [lit_inj]; decide)
        · split
          · rename_i hk
            refine (take32_spec.someG _).congrG fun v bs => ?_
            constructor
            · rintro ⟨x, rfl, rfl⟩
              show PropVal _ _ _ _
              rw [hk]; exact .int x
            · intro hv
              cases v with
              | none => exact (hbyte hv.1).elim
              | some v =>
                cases hv with
                | int x => exact ⟨x, rfl, rfl⟩
                | _ => exact absurd hk (by rw [lit_inj]; decide)
          · split
            · rename_i hk
              refine (take64_spec.someG _).congrG fun v bs => ?_
              constructor
              · rintro ⟨x, rfl, rfl⟩
                show PropVal _ _ _ _
                rw [hk]; exact .qword x
              · intro hv
                cases v with
                | none => exact (hbyte hv.1).elim
                | some v =>
                  cases hv with
                  | qword x => exact ⟨x, rfl, rfl⟩
                  | _ => exact absurd hk (by rw [lit_inj]; decide)
            · split
              · rename_i hk
                refine (parseText_spec.someG _).congrG fun v bs => ?_
                constructor
                · rintro ⟨x, h1, rfl⟩
                  show PropVal _ _ _ _
                  rw [hk]; exact .name h1
                · intro hv
                  cases v with
                  | none => exact (hbyte hv.1).elim
                  | some v =>
                    cases hv with
                    | name h1 => exact ⟨_, h1, rfl⟩
                    | _ => exact absurd hk (by rw [lit_inj]; decide)
              · split
                · rename_i hk
                  refine (parseText_spec.someG _).congrG fun v bs => ?_
                  constructor
                  · rintro ⟨x, h1, rfl⟩
                    show PropVal _ _ _ _
                    rw [hk]; exact .str h1
                  · intro hv
                    cases v with
                    | none => exact (hbyte hv.1).elim
                    | some v =>
                      cases hv with
                      | str h1 => exact ⟨_, h1, rfl⟩
                      | _ => exact absurd hk (by rw [lit_inj]; decide)
                · split
                  · rename_i hk
                    refine (parseStr_spec.seq' fun n => h.someG _).congrG fun v bs => ?_
                    constructor
                    · rintro ⟨n, b1, b2, h1, ⟨fs, h2, rfl⟩, rfl⟩
                      show PropVal _ _ _ _
                      rw [hk]; exact .struct h1 h2
                    · intro hv
                      cases v with
                      | none => exact (hbyte hv.1).elim
                      | some v =>
                        cases hv with
                        | @struct n fs b1 b2 h1 h2 => exact ⟨n, b1, b2, h1, ⟨fs, h2, rfl⟩, rfl⟩
                        | _ => exact absurd hk (by rw [lit_inj]; decide)
                  · rename_i n1 n3 n4 n5 n6 n7 n8 n9
                    refine (PSpec.failG _ fun _ => by trivial).congrG fun v bs => ?_
                    constructor
                    · exact False.elim
                    · intro hv
                      cases v with
                      | none => exact (hbyte hv.1).elim
                      | some v =>
                        cases hv with
                        | bool => exact n1 rfl
                        | boolQuirks => exact n1 rfl
                        | byte => exact hbyte rfl
                        | byteQuirks => exact hbyte rfl
                        | array => exact n3 rfl
                        | float => exact n4 rfl
                        | int => exact n5 rfl
                        | qword => exact n6 rfl
                        | name => exact n7 rfl
                        | str => exact n8 rfl
                        | struct => exact n9 rfl

theorem StrField.length_ge {s : Str} {bs : Bytes} (h : StrField s bs) : 4 ≤ bs.length := by
  rcases h with ⟨_, rfl⟩ | ⟨_, _, rfl⟩ <;> simp

theorem parseRdict_spec (fuel : Nat) (mode : ParserMode) (hN : N < fuel) :
    PSpec N (parseRdict fuel mode) (ofG (PropList mode.isQuirks)) := by
  induction fuel generalizing N with
  | zero => omega
  | succ fuel ih =>
    rw [parseRdict]
    have key : ∀ key bs, bs.length ≤ N → StrField key bs → PSpec (N - bs.length)
        (if key = lit "None" then Pure.pure []
          else do
            let kind ← parseStr
            let _size ← takeI32 "property size"
            let _ignored ← takeData 4
            let val ← propValue (parseRdict fuel mode) mode kind
            let rest ← parseRdict fuel mode
            match val with
            | none => Pure.pure rest
            | some v => Pure.pure ((key, v) :: rest))
        (ofG fun ps b => (key = lit "None" ∧ ps = [] ∧ b = []) ∨
          (key ≠ lit "None" ∧ ∃ kind b2 sz b3 b4 v rest, StrField kind b2 ∧ sz.length = 8 ∧
            PropOut mode.isQuirks kind v b3 ∧ PropList mode.isQuirks rest b4 ∧
            ps = (match v with | none => rest | some v => (key, v) :: rest) ∧
            b = b2 ++ (sz ++ (b3 ++ b4)))) := by
      intro key bs hNb hkey
      split
      · rename_i hk
        refine (PSpec.pureG []).congrG fun ps b => ?_
        constructor
        · rintro ⟨rfl, rfl⟩; exact .inl ⟨hk, rfl, rfl⟩
        · rintro (⟨_, rfl, rfl⟩ | ⟨h, _⟩)
          · exact ⟨rfl, rfl⟩
          · exact (h hk).elim
      · rename_i hk
        · have hbs := StrField.length_ge hkey
          have hf : N - bs.length < fuel := by omega
          have hlast : ∀ (v : Option HeaderProp) (rest : List (Str × HeaderProp)),
              PSpec (N - bs.length) (match v with
                | none => Pure.pure rest
                | some v => Pure.pure ((key, v) :: rest) : P (List (Str × HeaderProp)))
              (ofG fun ps b => ps = (match v with | none => rest | some v => (key, v) :: rest) ∧ b = []) := by
            intro v rest
            cases v <;> exact PSpec.pureG _
          refine (parseStr_spec.seq' fun kind => (takeI32_spec _).seq' fun size =>
            (PSpec.takeDataG 4 (.inl (by decide))).seq' fun ign => (propValue_spec (ih hf)).seq' fun v =>
              (ih hf).seq' fun rest => hlast v rest).congrG fun ps b => ?_
          constructor
          · rintro ⟨kind, b2, _, h1, ⟨size, _, _, rfl, ⟨ign, _, _, ⟨rfl, h2⟩, ⟨v, b3, _, h3,
              ⟨rest, b4, _, h4, ⟨rfl, rfl⟩, rfl⟩, rfl⟩, rfl⟩, rfl⟩, rfl⟩
            exact .inr ⟨hk, kind, b2, word size ++ ign, b3, b4, v, rest, h1, by simp [h2], h3, h4, rfl,
              by simp⟩
          · rintro (⟨h, _⟩ | ⟨_, kind, b2, sz, b3, b4, v, rest, h1, h2, h3, h4, rfl, rfl⟩)
            · exact (hk h).elim
            · refine ⟨kind, b2, _, h1, ⟨_, sz.take 4, _, (word_leNat _ (by simp [h2])).symm,
                ⟨sz.drop 4, sz.drop 4, _, ⟨rfl, by simp [h2]⟩, ⟨v, b3, _, h3,
                  ⟨rest, b4, [], h4, ⟨rfl, rfl⟩, rfl⟩, rfl⟩, rfl⟩, rfl⟩, ?_⟩
              rw [List.append_nil, ← List.append_assoc (sz.take 4), List.take_append_drop]
    refine (parseStr_spec.seq key).congrG fun ps bs => ?_
    constructor
    · rintro ⟨key, b1, _, h0, ⟨rfl, rfl, rfl⟩ |
        ⟨hk, kind, b2, sz, b3, b4, v, rest, h1, h2, h3, h4, rfl, rfl⟩, rfl⟩
      · rw [List.append_nil]; exact .done h0
      · cases v with
        | none =>
          obtain ⟨rfl, hq, b5, x, h5, rfl⟩ := h3
          exact .skip hk hq h0 h1 h2 h5 h4
        | some v => exact .prop hk h0 h1 h2 h3 h4
    · intro hp
      cases hp with
      | done h0 => exact ⟨_, _, [], h0, .inl ⟨rfl, rfl, rfl⟩, (List.append_nil _).symm⟩
      | @prop key kind v rest b1 b2 sz b3 b4 hk h0 h1 h2 h3 h4 =>
        exact ⟨key, b1, _, h0, .inr ⟨hk, kind, b2, sz, b3, b4, some v, rest, h1, h2, h3, h4, rfl, rfl⟩, rfl⟩
      | @skip key _ b1 b2 sz b3 x b4 hk hq h0 h1 h2 h3 h4 =>
        exact ⟨key, b1, _, h0, .inr ⟨hk, _, b2, sz, b3 ++ [x], b4, none, ps, h1, h2,
          ⟨rfl, hq, b3, x, h3, rfl⟩, h4, rfl, rfl⟩, rfl⟩

/-! ## Header -/

/-- `rdictFuel` supplies enough fuel. -/
theorem rdict_spec (mode : ParserMode) :
    PSpec N (do let fuel ← rdictFuel; parseRdict fuel mode)
      (ofG (PropList mode.isQuirks)) where
  suffix a d d' hd := by
    rintro ⟨bs, _, rfl⟩; exact List.suffix_append bs d'
  noFault T env s hT hi hd :=
    (parseRdict_spec (s.data.length + 1) mode (Nat.lt_succ_self _)).noFault T env s hT hi (Nat.le_refl _)
  okIff T env s hT hi hd :=
    (parseRdict_spec (s.data.length + 1) mode (Nat.lt_succ_self _)).okIff T env s hT hi (Nat.le_refl _)
  errInv T env s hT hi hd :=
    (parseRdict_spec (s.data.length + 1) mode (Nat.lt_succ_self _)).errInv T env s hT hi (Nat.le_refl _)
  agn T env env' s hT hT' hi hd :=
    (parseRdict_spec (s.data.length + 1) mode (Nat.lt_succ_self _)).agn T env env' s hT hT' hi
      (Nat.le_refl _)

theorem headerMode_isQuirks (major minor : I32) (net : Option I32) (bs : Bytes)
    (h : NetVersionField major minor net bs) :
    (headerMode major minor net).isQuirks = decide (major = 0 ∧ minor = 0) := by
  unfold NetVersionField at h
  split at h
  · rename_i hv
    obtain ⟨n, rfl, _⟩ := h
    have : ¬ (major = 0 ∧ minor = 0) := by
      rintro ⟨rfl, rfl⟩
      exact absurd hv.1 (by decide)
    simp only [headerMode, ParserMode.isQuirks, this, decide_false]
  · obtain ⟨rfl, _⟩ := h
    unfold headerMode
    simp only
    split
    · rename_i h0
      exact (decide_eq_true h0).symm
    · rename_i h0
      exact (decide_eq_false h0).symm

theorem netVersion_spec (major minor : I32) :
    PSpec N (if major.toInt > 865 ∧ minor.toInt > 17 then
        some <$> takeI32 "net version"
      else Pure.pure none) (ofG (NetVersionField major minor)) := by
  split
  · rename_i h
    refine ((takeI32_spec _).mapG some).congrG fun v bs => ?_
    unfold NetVersionField
    rw [if_pos ⟨h.1, h.2⟩]
    constructor
    · rintro ⟨n, rfl, rfl⟩; exact ⟨n, rfl, rfl⟩
    · rintro ⟨n, rfl, rfl⟩; exact ⟨n, rfl, rfl⟩
  · rename_i h
    refine (PSpec.pureG none).congrG fun v bs => ?_
    unfold NetVersionField
    rw [if_neg (fun h' => h ⟨h'.1, h'.2⟩)]

theorem parseHeader_eq : parseHeader =
    (takeI32 "major version" >>= fun major => takeI32 "minor version" >>= fun minor =>
      (if major.toInt > 865 ∧ minor.toInt > 17 then
        some <$> takeI32 "net version" else Pure.pure none) >>= fun net =>
      P.wrap "game type" parseText >>= fun gameType =>
      P.wrap "header properties" (do
        let fuel ← rdictFuel
        parseRdict fuel (headerMode major minor net)) >>= fun properties =>
      Pure.pure ⟨major, minor, net, gameType, properties⟩) := by
  unfold parseHeader
  congr 1; funext major; congr 1; funext minor
  simp only
  split <;> rfl

theorem parseHeader_spec : PSpec N parseHeader (ofG HeaderSec) := by
  rw [parseHeader_eq]
  refine ((takeI32_spec _).seq' fun major => (takeI32_spec _).seq' fun minor =>
    (netVersion_spec major minor).seq' fun net => (parseText_spec.wrap _).seq' fun game =>
      ((rdict_spec (headerMode major minor net)).wrap _).someG _).congrG fun h bs => ?_
  unfold HeaderSec
  constructor
  · rintro ⟨major, _, _, rfl, ⟨minor, _, _, rfl, ⟨net, b1, _, h1, ⟨game, b2, b3, h2, ⟨ps, h3, rfl⟩,
      rfl⟩, rfl⟩, rfl⟩, rfl⟩
    rw [headerMode_isQuirks _ _ _ _ h1] at h3
    exact ⟨b1, b2, b3, h1, h2, h3, rfl⟩
  · rintro ⟨b1, b2, b3, h1, h2, h3, rfl⟩
    refine ⟨h.majorVersion, _, _, rfl, ⟨h.minorVersion, _, _, rfl, ⟨h.netVersion, b1, _, h1,
      ⟨h.gameType, b2, b3, h2, ⟨h.properties, ?_, rfl⟩, rfl⟩, rfl⟩, rfl⟩, rfl⟩
    rw [headerMode_isQuirks _ _ _ _ h1]
    exact h3

/-! ## Body -/

theorem tickMark_spec : PSpec N (do
    let description ← parseText
    let frame ← take32
    Pure.pure (⟨description, frame⟩ : TickMark)) (ofG TickMarkEnc) := by
  refine (parseText_spec.seq' fun d => take32_spec.someG _).congrG fun t bs => ?_
  unfold TickMarkEnc
  constructor
  · rintro ⟨d, b, _, h, ⟨f, rfl, rfl⟩, rfl⟩; exact ⟨b, h, rfl⟩
  · rintro ⟨b, h, rfl⟩; exact ⟨_, b, _, h, ⟨_, rfl, rfl⟩, rfl⟩

theorem parseTickmarks_spec : PSpec N parseTickmarks (ofG (ListField TickMarkEnc)) :=
  listOf_spec tickMark_spec

theorem keyFrame_spec : PSpec N (do
    let time ← take32
    let frame ← take32
    let position ← take32
    Pure.pure (⟨time, frame, position⟩ : KeyFrame)) (ofG KeyFrameEnc) := by
  refine (take32_spec.seq' fun a => take32_spec.seq' fun b =>
    take32_spec.someG _).congrG fun t bs => ?_
  unfold KeyFrameEnc
  constructor
  · rintro ⟨_, _, _, rfl, ⟨_, _, _, rfl, ⟨_, rfl, rfl⟩, rfl⟩, rfl⟩; rfl
  · rintro rfl; exact ⟨_, _, _, rfl, ⟨_, _, _, rfl, ⟨_, rfl, rfl⟩, rfl⟩, rfl⟩

theorem parseKeyframe_spec : PSpec N parseKeyframe (ofG (ListField KeyFrameEnc)) :=
  listOf_spec keyFrame_spec

theorem debugInfo_spec : PSpec N (do
    let frame ← take32
    let user ← parseText
    let text ← parseText
    Pure.pure (⟨frame, user, text⟩ : DebugInfo)) (ofG DebugInfoEnc) := by
  refine (take32_spec.seq' fun a => parseText_spec.seq' fun b =>
    parseText_spec.someG _).congrG fun t bs => ?_
  unfold DebugInfoEnc
  constructor
  · rintro ⟨_, _, _, rfl, ⟨_, b1, _, h1, ⟨_, h2, rfl⟩, rfl⟩, rfl⟩
    exact ⟨_, _, h1, h2, rfl⟩
  · rintro ⟨b1, b2, h1, h2, rfl⟩; exact ⟨_, _, _, rfl, ⟨_, _, _, h1, ⟨_, h2, rfl⟩, rfl⟩, rfl⟩

theorem parseDebuginfo_spec : PSpec N parseDebuginfo (ofG (ListField DebugInfoEnc)) :=
  listOf_spec debugInfo_spec

theorem classIndex_spec : PSpec N (do
    let cls ← parseStr
    let index ← take32
    Pure.pure (⟨cls, index⟩ : ClassIndex)) (ofG ClassIndexEnc) := by
  refine (parseStr_spec.seq' fun d => take32_spec.someG _).congrG fun t bs => ?_
  unfold ClassIndexEnc
  constructor
  · rintro ⟨d, b, _, h, ⟨f, rfl, rfl⟩, rfl⟩; exact ⟨b, h, rfl⟩
  · rintro ⟨b, h, rfl⟩; exact ⟨_, b, _, h, ⟨_, rfl, rfl⟩, rfl⟩

theorem parseClassindex_spec : PSpec N parseClassindex (ofG (ListField ClassIndexEnc)) :=
  listOf_spec classIndex_spec

theorem cacheProp_spec : PSpec N (do
    let objectInd ← take32
    let streamId ← take32
    Pure.pure (⟨objectInd, streamId⟩ : CacheProp)) (ofG CachePropEnc) := by
  refine (take32_spec.seq' fun a => take32_spec.someG _).congrG fun t bs => ?_
  unfold CachePropEnc
  constructor
  · rintro ⟨_, _, _, rfl, ⟨_, rfl, rfl⟩, rfl⟩; rfl
  · rintro rfl; exact ⟨_, _, _, rfl, ⟨_, rfl, rfl⟩, rfl⟩

theorem classNetCache_spec : PSpec N (do
    let objectInd ← take32
    let parentId ← take32
    let cacheId ← take32
    let properties ← listOf do
      let objectInd ← take32
      let streamId ← take32
      Pure.pure (⟨objectInd, streamId⟩ : CacheProp)
    Pure.pure (⟨objectInd, parentId, cacheId, properties⟩ : ClassNetCache)) (ofG ClassNetCacheEnc) := by
  refine (take32_spec.seq' fun a => take32_spec.seq' fun b => take32_spec.seq' fun c =>
    (listOf_spec cacheProp_spec).someG _).congrG fun t bs => ?_
  unfold ClassNetCacheEnc
  constructor
  · rintro ⟨_, _, _, rfl, ⟨_, _, _, rfl, ⟨_, _, _, rfl, ⟨_, h, rfl⟩, rfl⟩, rfl⟩, rfl⟩
    exact ⟨_, h, rfl⟩
  · rintro ⟨b, h, rfl⟩
    exact ⟨_, _, _, rfl, ⟨_, _, _, rfl, ⟨_, _, _, rfl, ⟨_, h, rfl⟩, rfl⟩, rfl⟩, rfl⟩

theorem parseClasscache_spec : PSpec N parseClasscache (ofG (ListField ClassNetCacheEnc)) :=
  listOf_spec classNetCache_spec

/-- The tail of the body after the network data. -/
theorem networkData_spec {β : Type} {f : List Byte → P β} {g : List Byte → β → Bytes → Prop}
    (size : I32) (h : ∀ nd, PSpec N (f nd) (ofG (g nd))) :
    PSpec N (P.usize size >>= fun n => P.wrap "network data" (takeData n) >>= f)
      (ofG fun b bs => ∃ nd b2, nd.length < 2 ^ 31 ∧ size = BitVec.ofNat 32 nd.length ∧
        g nd b b2 ∧ bs = nd ++ b2) := by
  refine (PSpec.usizeG size (fun n _ hM hn => ((PSpec.takeDataG n hn).wrap _).seq' fun nd =>
    (h nd).mono hM) ?_).congrG fun b bs => ?_
  · rintro n hn a bs hb ⟨_, _, _, ⟨rfl, h1⟩, _, rfl⟩
    rw [List.length_append] at hb; omega
  · constructor
    · rintro ⟨h0, nd, _, b2, ⟨rfl, h1⟩, h2, rfl⟩
      have hlt : nd.length < 2 ^ 31 := by
        have := size.isLt
        rw [BitVec.toInt_eq_toNat_cond] at h0
        split at h0 <;> omega
      exact ⟨nd, b2, hlt, (size_iff _ _ hlt).1 ⟨h0, h1⟩, h2, rfl⟩
    · rintro ⟨nd, b2, hlt, hs, h2, rfl⟩
      have := (size_iff _ _ hlt).2 hs
      exact ⟨this.1, nd, nd, b2, ⟨rfl, this.2⟩, h2, rfl⟩

theorem parseBody_spec : PSpec N parseBody (ofG BodySec) := by
  unfold parseBody
  refine ((textList_spec.wrap _).seq' fun b1 => (parseKeyframe_spec.wrap _).seq' fun b2 =>
    (takeI32_spec _).seq' fun size => networkData_spec size fun nd =>
    (parseDebuginfo_spec.wrap _).seq' fun b3 => (parseTickmarks_spec.wrap _).seq' fun b4 =>
    (textList_spec.wrap _).seq' fun b5 => (textList_spec.wrap _).seq' fun b6 =>
    (textList_spec.wrap _).seq' fun b7 => (parseClassindex_spec.wrap _).seq' fun b8 =>
    (parseClasscache_spec.wrap _).someG _).congrG fun b bs => ?_
  unfold BodySec
  constructor
  · rintro ⟨_, b1, _, h1, ⟨_, b2, _, h2, ⟨_, _, _, rfl, ⟨nd, _, hl, rfl, ⟨_, b3, _, h3, ⟨_, b4, _, h4,
      ⟨_, b5, _, h5, ⟨_, b6, _, h6, ⟨_, b7, _, h7, ⟨_, b8, _, h8, ⟨_, h9, rfl⟩, rfl⟩, rfl⟩, rfl⟩,
      rfl⟩, rfl⟩, rfl⟩, rfl⟩, rfl⟩, rfl⟩, rfl⟩
    exact ⟨b1, b2, b3, b4, b5, b6, b7, b8, _, h1, h2, hl, h3, h4, h5, h6, h7, h8, h9, rfl⟩
  · rintro ⟨b1, b2, b3, b4, b5, b6, b7, b8, b9, h1, h2, hl, h3, h4, h5, h6, h7, h8, h9, rfl⟩
    exact ⟨_, b1, _, h1, ⟨_, b2, _, h2, ⟨_, _, _, rfl, ⟨_, _, hl, rfl, ⟨_, b3, _, h3, ⟨_, b4, _, h4,
      ⟨_, b5, _, h5, ⟨_, b6, _, h6, ⟨_, b7, _, h7, ⟨_, b8, _, h8, ⟨_, h9, rfl⟩, rfl⟩, rfl⟩, rfl⟩,
      rfl⟩, rfl⟩, rfl⟩, rfl⟩, rfl⟩, rfl⟩, rfl⟩

end Boxcars
