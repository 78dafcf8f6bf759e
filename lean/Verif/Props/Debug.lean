import Verif.Proofs.DebugFloat
import Verif.Props.MessageSize
/-!
# C95: the values in error messages can be read off
-/
namespace Boxcars.Props
open Boxcars Spec Debug

variable {s : Std}

/-- C95. Two values have the same text in messages if and only if they are equal, where all NaN
count as equal. -/
theorem attr_text (h : StdText s) (a b : Attribute) :
    (fmt s).attr a = (fmt s).attr b ↔ quiet a = quiet b :=
  (show_iff (floatDebug h) (attribute_wf a) (attribute_wf b)).trans (attribute_tells (floatDebug h) a b)

theorem tag_text (h : StdText s) (a b : AttributeTag) :
    (fmt s).tag a = (fmt s).tag b ↔ a = b :=
  (show_iff (floatDebug h) (attributeTag_wf a) (attributeTag_wf b)).trans (tag_same a b)

theorem location_text (h : StdText s) (a b : Option Vector3i) :
    (fmt s).location a = (fmt s).location b ↔ a = b :=
  (show_iff (floatDebug h) (option_wf vector3i_wf a) (option_wf vector3i_wf b)).trans
    (option_same vector3i_same a b)

theorem rotation_text (h : StdText s) (a b : Option Rotation) :
    (fmt s).rotation a = (fmt s).rotation b ↔ a = b :=
  (show_iff (floatDebug h) (option_wf rotation_wf a) (option_wf rotation_wf b)).trans
    (option_same rotation_same a b)

/-- C95. The texts have no other characters than visible ASCII characters and those that the
standard library does not escape: names in a value cannot add control characters to a message. -/
theorem texts_plain (h : StdText s) (P : Char → Prop)
    (ascii : ∀ c : Char, 32 ≤ c.toNat → c.toNat < 127 → P c) (plain : ∀ c, s.plain c = true → c ≠ '\n' → P c) :
    (∀ a, ∀ c ∈ (fmt s).attr a, P c) ∧ (∀ a, ∀ c ∈ (fmt s).tag a, P c) ∧
    (∀ a, ∀ c ∈ (fmt s).location a, P c) ∧ (∀ a, ∀ c ∈ (fmt s).rotation a, P c) ∧
    ∀ a, ∀ c ∈ (fmt s).f32 a, P c :=
  ⟨fun a => shown_val (floatDebug h) ⟨ascii, plain⟩ _ (attribute_wf a),
   fun a => shown_val (floatDebug h) ⟨ascii, plain⟩ _ (attributeTag_wf a),
   fun a => shown_val (floatDebug h) ⟨ascii, plain⟩ _ (option_wf vector3i_wf a),
   fun a => shown_val (floatDebug h) ⟨ascii, plain⟩ _ (option_wf rotation_wf a),
   fun a c hc => ascii c (atom_ascii ((display_chars h a).1 c hc)).1
     (atom_ascii ((display_chars h a).1 c hc)).2⟩

/-- C95. The text of a value, a tag or a place is on one line. -/
theorem text_one_line (h : StdText s) : (∀ a, '\n' ∉ (fmt s).attr a) ∧ (∀ a, '\n' ∉ (fmt s).tag a) ∧
    (∀ a, '\n' ∉ (fmt s).location a) ∧ ∀ a, '\n' ∉ (fmt s).rotation a := by
  have hp := texts_plain h (· ≠ '\n') (by rintro c h1 _ rfl; exact absurd h1 (by decide))
    (fun _ _ h => h)
  exact ⟨fun a ha => hp.1 a _ ha rfl, fun a ha => hp.2.1 a _ ha rfl,
    fun a ha => hp.2.2.1 a _ ha rfl, fun a ha => hp.2.2.2.1 a _ ha rfl⟩

/-- C95 with C85: messages are linear in the file, without assumptions on the texts of values. -/
theorem message_linear_std (h : StdText s) {check : CrcCheck} {np : NetworkParse} {env : Env}
    {data : List Byte} (hs : Small env data) {e : ParseError}
    (hp : parseWith check np env data = .err e) :
    (utf8 (Display.parseError (fmt s) e)).length ≤ 49179 * (data.length + 41) := by
  refine message_linear (K := 6144) (brief (floatDebug h) fun x => ?_) hs hp
  rw [atoms_len (display_chars h x).1]
  exact Nat.le_trans (display_chars h x).2 (by decide)

/-- Such texts exist, for every choice of what is escaped. -/
theorem std_exists (plain : Char → Bool) : ∃ s : Std, StdText s ∧ s.plain = plain := by
  classical
  let pick : ∀ f : F32, IsFinite f ∧ fval f ≠ 0 → { p : Nat × Int // Shortest f p.1 p.2 } := fun f h =>
    ⟨((shortest_exists h.1 h.2).choose, (shortest_exists h.1 h.2).choose_spec.choose),
      (shortest_exists h.1 h.2).choose_spec.choose_spec⟩
  let text : Str → (Nat → Int → Str) → F32 → Str := fun z l f =>
    if IsNaN f then ['N', 'a', 'N'] else
      if h : IsFinite f ∧ fval f ≠ 0 then sign f ++ l (pick f h).1.1 (pick f h).1.2
      else if IsFinite f then sign f ++ z else sign f ++ ['i', 'n', 'f']
  have nf : ∀ f, IsFinite f → ¬IsNaN f := fun f h1 h2 => h1 h2.1
  refine ⟨⟨text ['0', '.', '0'] (layout true (-3) 16), text ['0'] (layout false (-100) 100), plain⟩,
    ⟨?_, ?_, ?_, ?_⟩, rfl⟩
  · intro f hf
    exact ⟨if_pos hf, if_pos hf⟩
  · intro f hn hf
    refine ⟨?_, ?_⟩ <;> simp only [text] <;>
      rw [if_neg hn, dif_neg (fun h => hf h.1), if_neg hf]
  · intro f hf h0
    refine ⟨?_, ?_⟩ <;> simp only [text] <;>
      rw [if_neg (nf f hf), dif_neg (fun h => h.2 h0), if_pos hf]
  · intro f hf h0
    refine ⟨_, _, (pick f ⟨hf, h0⟩).2, ?_, ?_⟩ <;> simp only [text] <;>
      rw [if_neg (nf f hf), dif_pos ⟨hf, h0⟩]

/-! ## The last line -/

/-- The last line of a text of several lines. -/
def LastLine (m x : Str) : Prop := ∃ pre, m = pre ++ '\n' :: (x ++ ['\n']) ∧ '\n' ∉ x

theorem LastLine.unique {m x y : Str} (h1 : LastLine m x) (h2 : LastLine m y) : x = y := by
  obtain ⟨a, rfl, ha⟩ := h1
  obtain ⟨b, e, hb⟩ := h2
  have e := congrArg List.reverse e
  simp only [List.reverse_append, List.reverse_cons, List.reverse_nil, List.append_assoc,
    List.nil_append, List.cons_append, List.cons.injEq, true_and] at e
  have := (sep_unique (by simpa using ha) (by simpa using hb) e).1
  exact List.reverse_injective this

theorem LastLine.append {m x : Str} (h : LastLine m x) (p : Str) : LastLine (p ++ m) x := by
  obtain ⟨a, rfl, ha⟩ := h
  exact ⟨p ++ a, by rw [List.append_assoc], ha⟩

/-- The last two lines. -/
def LastTwo (m x y : Str) : Prop :=
  ∃ pre, m = pre ++ '\n' :: (x ++ '\n' :: (y ++ ['\n'])) ∧ '\n' ∉ x ∧ '\n' ∉ y

theorem LastTwo.unique {m x y x' y' : Str} (h1 : LastTwo m x y) (h2 : LastTwo m x' y') :
    x = x' ∧ y = y' := by
  obtain ⟨a, rfl, hx, hy⟩ := h1
  obtain ⟨b, e, hx', hy'⟩ := h2
  have e := congrArg List.reverse e
  simp only [List.reverse_append, List.reverse_cons, List.reverse_nil, List.append_assoc,
    List.nil_append, List.cons_append, List.cons.injEq, true_and] at e
  obtain ⟨e1, e2⟩ := sep_unique (by simpa using hy) (by simpa using hy') e
  have e3 := (sep_unique (by simpa using hx) (by simpa using hx') e2).1
  exact ⟨List.reverse_injective e3, List.reverse_injective e1⟩

theorem LastTwo.append {m x y : Str} (h : LastTwo m x y) (p : Str) : LastTwo (p ++ m) x y := by
  obtain ⟨a, rfl, h⟩ := h
  exact ⟨p ++ a, by rw [List.append_assoc], h⟩

theorem lastLine_of {a x : Str} (hx : '\n' ∉ x) : LastLine (Display.line a ++ Display.line x) x := by
  refine ⟨a, ?_, hx⟩
  unfold Display.line
  rw [List.append_assoc]
  rfl

/-- The last line of a message about a frame. -/
def lastText (s : Std) : Option LastRecord → Str
  | some (.value a) => Display.t "attribute: " ++ (fmt s).attr a
  | some (.place _ r) => Display.t "rotation: " ++ (fmt s).rotation r
  | none => Display.t "- No actor information decoded"

theorem lastText_line (h : StdText s) (o : Option LastRecord) :
    '\n' ∉ lastText s o := by
  have hp := texts_plain h (· ≠ '\n') (by rintro c h1 _ rfl; exact absurd h1 (by decide)) (fun _ _ h => h)
  rcases o with _ | ⟨a⟩ | ⟨l, r⟩
  · show '\n' ∉ Display.t "- No actor information decoded"
    decide +kernel
  · intro hc
    rcases List.mem_append.1 hc with hc | hc
    · revert hc; decide +kernel
    · exact hp.1 a _ hc rfl
  · intro hc
    rcases List.mem_append.1 hc with hc | hc
    · revert hc; decide +kernel
    · exact hp.2.2.2.1 r _ hc rfl

theorem update_last (h : StdText s) (ctx : FrameContext)
    (u : UpdatedAttribute) : LastLine (Display.update (fmt s) ctx u) (lastText s (some (.value u.attr))) := by
  rw [Display.update]
  rw [List.append_assoc]
  exact (lastLine_of (lastText_line h (some (.value u.attr)))).append _

/-- The last line, and the one before it if it tells where an actor was created. -/
def Ending (s : Std) (m : Str) (o : Option LastRecord) : Prop :=
  LastLine m (lastText s o) ∧ ∀ l r, o = some (.place l r) →
    LastTwo m (Display.t "location: " ++ (fmt s).location l) (lastText s o)

theorem Ending.append {m : Str} {o : Option LastRecord} (h : Ending s m o) (p : Str) :
    Ending s (p ++ m) o :=
  ⟨h.1.append p, fun l r e => (h.2 l r e).append p⟩

theorem update_end (h : StdText s) (ctx : FrameContext)
    (u : UpdatedAttribute) : Ending s (Display.update (fmt s) ctx u) (some (.value u.attr)) :=
  ⟨update_last h ctx u, fun l r e => by cases e⟩

theorem none_end (h : StdText s) (a : Str) :
    Ending s (Display.line a ++ Display.line (Display.t "- No actor information decoded")) none :=
  ⟨lastLine_of (lastText_line h none), fun l r e => by cases e⟩

theorem newActor_end (h : StdText s) (ctx : FrameContext)
    (a : NewActor) : Ending s (Display.newActor (fmt s) ctx a)
      (some (.place a.initialTrajectory.location a.initialTrajectory.rotation)) := by
  have hp := texts_plain h (· ≠ '\n') (by rintro c h1 _ rfl; exact absurd h1 (by decide)) (fun _ _ h => h)
  have hr := lastText_line h (some (.place a.initialTrajectory.location a.initialTrajectory.rotation))
  refine ⟨?_, ?_⟩
  · rw [Display.newActor, List.append_assoc]
    exact (lastLine_of hr).append _
  · intro l r e
    cases e
    rw [Display.newActor, List.append_assoc, List.append_assoc]
    refine LastTwo.append ?_ _
    refine ⟨Display.t "object name: " ++ Display.objectName ctx a.objectId, ?_, ?_, hr⟩
    · unfold Display.line
      simp only [List.append_assoc]
      rfl
    · intro hc
      rcases List.mem_append.1 hc with hc | hc
      · revert hc; decide +kernel
      · exact hp.2.2.1 _ _ hc rfl

theorem find_zipIdx {α : Type} (p : α → Bool) (l : List α) :
    (l.zipIdx.reverse.find? fun x => p x.1).map (·.1) = l.reverse.find? p := by
  have key : ∀ (m : List (α × Nat)), (m.find? fun x => p x.1).map (·.1) = (m.map (·.1)).find? p := by
    intro m
    induction m with
    | nil => rfl
    | cons x m ih =>
      simp only [List.find?_cons, List.map_cons]
      cases p x.1
      · exact ih
      · rfl
  rw [key, List.map_reverse, List.zipIdx_map_fst]

theorem lastRecord_find (l : List Frame) :
    (∀ fr, l.find? (fun f => !f.updatedActors.isEmpty || !f.newActors.isEmpty) = some fr →
      lastRecord (l.map fun f => (f.updatedActors, f.newActors)) =
        lastRecord [(fr.updatedActors, fr.newActors)]) ∧
    (l.find? (fun f => !f.updatedActors.isEmpty || !f.newActors.isEmpty) = none →
      lastRecord (l.map fun f => (f.updatedActors, f.newActors)) = none) := by
  induction l with
  | nil => exact ⟨fun _ h => (by cases h), fun _ => rfl⟩
  | cons f l ih =>
    rw [List.find?_cons, List.map_cons, lastRecord]
    cases hu : f.updatedActors with
    | cons u us =>
      have e : (u :: us).getLast? ≠ none := by rw [Ne, List.getLast?_eq_none_iff]; exact List.cons_ne_nil _ _
      obtain ⟨x, hx⟩ := Option.ne_none_iff_exists'.1 e
      rw [hx]
      refine ⟨fun fr h => ?_, fun h => (by cases h)⟩
      cases h
      rw [lastRecord, hu, hx]
    | nil =>
      cases ha : f.newActors with
      | nil => exact ih
      | cons a as =>
        have e : (a :: as).getLast? ≠ none := by rw [Ne, List.getLast?_eq_none_iff]; exact List.cons_ne_nil _ _
        obtain ⟨x, hx⟩ := Option.ne_none_iff_exists'.1 e
        rw [hx]
        refine ⟨fun fr h => ?_, fun h => (by cases h)⟩
        cases h
        rw [lastRecord, hu, ha, hx]
        rfl

/-- The last line tells the last record. -/
theorem context_last (h : StdText s) (ctx : FrameContext) :
    Ending s (Display.context (fmt s) ctx) (lastSeen ctx) := by
  rw [Display.context, lastSeen, lastRecord]
  cases ctx.updatedActors.getLast? with
  | some u => exact (update_end h ctx u).append _
  | none =>
    cases ctx.newActors.getLast? with
    | some a => exact (newActor_end h ctx a).append _
    | none =>
      simp only
      have hf := find_zipIdx (fun f : Frame => !f.updatedActors.isEmpty || !f.newActors.isEmpty) ctx.frames
      obtain ⟨h1, h2⟩ := lastRecord_find ctx.frames.reverse
      have em : Display.mostRecent ctx = ctx.frames.zipIdx.reverse.find? (fun p =>
        !p.1.updatedActors.isEmpty || !p.1.newActors.isEmpty) := rfl
      rw [← em] at hf
      cases hm : Display.mostRecent ctx with
      | none =>
        rw [hm] at hf
        rw [h2 hf.symm, List.append_nil]
        exact none_end h _
      | some p =>
        obtain ⟨fr, i⟩ := p
        rw [hm] at hf
        rw [h1 fr hf.symm, lastRecord]
        simp only
        cases fr.updatedActors.getLast? with
        | some u => exact (((update_end h ctx u).append _).append _).append _
        | none =>
          cases fr.newActors.getLast? with
          | some a => exact (((newActor_end h ctx a).append _).append _).append _
          | none => exact ((none_end h _).append _).append _

/-- C95. Messages about frames that are equal tell of the same last record, where all NaN count as
equal. -/
theorem ending_inj (h : StdText s) {m : Str} {o o' : Option LastRecord} (h1 : Ending s m o)
    (h2 : Ending s m o') : o.map LastRecord.quiet = o'.map LastRecord.quiet := by
  have e := h1.1.unique h2.1
  have e1 : Display.t "attribute: " = 'a' :: (Display.t "attribute: ").tail := by decide +kernel
  have e2 : Display.t "rotation: " = 'r' :: (Display.t "rotation: ").tail := by decide +kernel
  have e3 : Display.t "- No actor information decoded" =
    '-' :: (Display.t "- No actor information decoded").tail := by decide +kernel
  rcases o with _ | ⟨a⟩ | ⟨l, r⟩ <;> rcases o' with _ | ⟨a'⟩ | ⟨l', r'⟩ <;>
    simp only [lastText] at e
  · rfl
  · rw [e3, e1] at e; exact absurd (List.cons.inj e).1 (by decide)
  · rw [e3, e2] at e; exact absurd (List.cons.inj e).1 (by decide)
  · rw [e3, e1] at e; exact absurd (List.cons.inj e).1 (by decide)
  · exact congrArg (some ∘ LastRecord.value) ((attr_text h a a').1 (List.append_cancel_left e))
  · rw [e2, e1] at e; exact absurd (List.cons.inj e).1 (by decide)
  · rw [e3, e2] at e; exact absurd (List.cons.inj e).1 (by decide)
  · rw [e2, e1] at e; exact absurd (List.cons.inj e).1 (by decide)
  · have hr := (rotation_text h r r').1 (List.append_cancel_left e)
    have hl := ((h1.2 l r rfl).unique (h2.2 l' r' rfl)).1
    have hl := (location_text h l l').1 (List.append_cancel_left hl)
    rw [hr, hl]

/-- C95. The message of a failure in a frame tells the last record before the failure: the value of
the last update, or where the last actor was created. -/
theorem message_record (h : StdText s) {e e' : FrameError}
    {ctx ctx' : FrameContext}
    (he : Display.parseError (fmt s) (.networkError (.frameError e ctx)) =
      Display.parseError (fmt s) (.networkError (.frameError e' ctx'))) :
    (lastSeen ctx).map LastRecord.quiet = (lastSeen ctx').map LastRecord.quiet := by
  have key : ∀ (e : FrameError) (ctx : FrameContext),
      Ending s (Display.parseError (fmt s) (.networkError (.frameError e ctx))) (lastSeen ctx) := by
    intro e ctx
    obtain ⟨dot, _, ht⟩ := network_text (fmt s) e ctx
    have hc := context_last h ctx
    show Ending s (Display.networkError (fmt s) (.frameError e ctx)) (lastSeen ctx)
    rw [ht]
    exact hc.append _
  exact ending_inj h (he ▸ key e ctx) (key e' ctx')

/-! ## Examples -/

/-- A text with a quote and a line break. -/
theorem string_text (ha : s.plain 'a' = true) (hb : s.plain 'b' = true) :
    (fmt s).attr (.string "a\"\nb".toList) = "String(\"a\\\"\\nb\")".toList := by
  rw [show ("a\"\nb".toList : Str) = ['a', '"', '\n', 'b'] by decide +kernel,
    show "String(\"a\\\"\\nb\")".toList = ['S', 't', 'r', 'i', 'n', 'g', '(', '"', 'a', '\\', '"', '\\', 'n', 'b',
      '"', ')'] by decide +kernel]
  simp [fmt, dAttribute, dStr, call, unnamed, DVal.show, DItems.show, Kind.opening, Kind.closing,
    Kind.label, escape, ha, hb]

theorem pickup_text : (fmt s).attr (.pickupNew ⟨some 7#32, 3#8⟩) =
    "PickupNew(PickupNew { instigator: Some(ActorId(7)), picked_up: 3 })".toList := by
  simp only [fmt, dAttribute, dPickupNew, dOption, dActorId, dSigned, dUnsigned, record, call, items,
    unnamed, DVal.show, DItems.show, Kind.opening, Kind.closing, Kind.label]
  decide +kernel

theorem location_example : (fmt s).location (some ⟨1, -2, 3⟩) =
    "Some(Vector3i { x: 1, y: -2, z: 3 })".toList := by
  simp only [fmt, dVector3i, dOption, dSigned, record, call, items,
    unnamed, DVal.show, DItems.show, Kind.opening, Kind.closing, Kind.label]
  decide +kernel

/-- Two NaN with the same text. -/
theorem nan_text (h : StdText s) : (fmt s).attr (.float 0x7fc00000) = (fmt s).attr (.float 0xffc00001) ∧
    (fmt s).attr (.float 0) ≠ (fmt s).attr (.float 0x80000000) := by
  refine ⟨(attr_text h _ _).2 (by decide), fun e => ?_⟩
  have := (attr_text h _ _).1 e
  revert this
  decide

end Boxcars.Props
