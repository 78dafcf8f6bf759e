import Verif.Proofs.DebugFloat
import Verif.Spec.Lines
import Verif.Spec.Told
/-!
# The lines of a message
-/
namespace Boxcars.Lines
open Boxcars Spec Debug

variable {P : Char → Prop} {s : Std}

/-- A text without line breaks. -/
def Plain (P : Char → Prop) (a : Str) : Prop := ∀ c ∈ a, c ≠ '\n' ∧ P c

theorem Plain.lines {a : Str} (h : Plain P a) (n : Nat) : Lines P n a :=
  ⟨by rw [List.count_eq_zero.2 fun hc => (h _ hc).1 rfl]; exact Nat.zero_le n,
   fun c hc => .inr (h c hc).2⟩

theorem Plain.append {a b : Str} (ha : Plain P a) (hb : Plain P b) : Plain P (a ++ b) :=
  all_append ha hb

theorem append {n m : Nat} {a b : Str} (ha : Lines P n a) (hb : Lines P m b) :
    Lines P (n + m) (a ++ b) :=
  ⟨by rw [List.count_append]; exact Nat.add_le_add ha.1 hb.1,
   fun c hc => (List.mem_append.1 hc).elim (ha.2 c) (hb.2 c)⟩

theorem _root_.Boxcars.Spec.Lines.mono {n m : Nat} {a : Str} (h : Lines P n a) (hm : n ≤ m) : Lines P m a :=
  ⟨Nat.le_trans h.1 hm, h.2⟩

theorem nil (n : Nat) : Lines P n [] := ⟨Nat.zero_le n, fun _ h => by cases h⟩

theorem line {a : Str} (h : Plain P a) : Lines P 1 (Display.line a) := by
  refine append (n := 0) (m := 1) (h.lines 0) ⟨by decide, fun c hc => .inl ?_⟩
  rw [show Display.t "\n" = ['\n'] from rfl] at hc
  exact List.mem_singleton.1 hc

/-- Everything that is assumed of the characters. -/
structure Ok (P : Char → Prop) (s : Std) : Prop where
  std : StdText s
  ascii : ∀ c : Char, 32 ≤ c.toNat → c.toNat < 127 → P c
  plain : ∀ c, s.plain c = true → c ≠ '\n' → P c

theorem ascii_ne {c : Char} (h : 32 ≤ c.toNat) : c ≠ '\n' := by
  rintro rfl
  revert h
  decide

theorem Ok.lit (ok : Ok P s) (a : String)
    (h : (a.toList.all fun c => decide (32 ≤ c.toNat ∧ c.toNat < 127)) = true) :
    Plain P (Display.t a) := by
  intro c hc
  have := of_decide_eq_true (List.all_eq_true.1 h c hc)
  exact ⟨ascii_ne this.1, ok.ascii c this.1 this.2⟩

theorem Ok.atom (ok : Ok P s) {a : Str} (h : ∀ c ∈ a, AtomChar c) : Plain P a :=
  fun c hc => have := atom_ascii (h c hc); ⟨ascii_ne this.1, ok.ascii c this.1 this.2⟩

theorem Ok.nat (ok : Ok P s) (n : Nat) : Plain P (displayNat n) := ok.atom (displayNat_atom n)
theorem Ok.i32 (ok : Ok P s) (n : I32) : Plain P (Display.i32 n) := ok.atom (displayInt_atom _)
theorem Ok.f32 (ok : Ok P s) (x : F32) : Plain P ((fmt s).f32 x) :=
  ok.atom (display_chars ok.std x).1

theorem Ok.shown (ok : Ok P s) : Shown s.plain fun c => c ≠ '\n' ∧ P c :=
  ⟨fun c h h' => ⟨ascii_ne h, ok.ascii c h h'⟩, fun c h h' => ⟨h', ok.plain c h h'⟩⟩

theorem Ok.attr (ok : Ok P s) (a : Attribute) : Plain P ((fmt s).attr a) :=
  shown_val (floatDebug ok.std) ok.shown _ (attribute_wf a)
theorem Ok.tag (ok : Ok P s) (a : AttributeTag) : Plain P ((fmt s).tag a) :=
  shown_val (floatDebug ok.std) ok.shown _ (attributeTag_wf a)
theorem Ok.location (ok : Ok P s) (a : Option Vector3i) : Plain P ((fmt s).location a) :=
  shown_val (floatDebug ok.std) ok.shown _ (option_wf vector3i_wf a)
theorem Ok.rotation (ok : Ok P s) (a : Option Rotation) : Plain P ((fmt s).rotation a) :=
  shown_val (floatDebug ok.std) ok.shown _ (option_wf rotation_wf a)

theorem Ok.dashes (ok : Ok P s) (n : Nat) : Plain P (Display.dashes n) := by
  intro c hc
  rw [List.eq_of_mem_replicate hc]
  exact ⟨by decide, ok.ascii _ (by decide) (by decide)⟩

theorem Ok.none (_ : Ok P s) : Plain P [] := fun _ h => by cases h

/-- Decomposes a text without line breaks. -/
macro "plain " ok:term : tactic => `(tactic| repeat' first
  | assumption
  | exact Ok.nat $ok _ | exact Ok.i32 $ok _ | exact Ok.f32 $ok _ | exact Ok.attr $ok _
  | exact Ok.tag $ok _ | exact Ok.location $ok _ | exact Ok.rotation $ok _
  | exact Ok.dashes $ok _ | exact Ok.none $ok
  | exact Ok.lit $ok _ (by decide +kernel)
  | apply Plain.append)

theorem utf8Error (ok : Ok P s) (e : Utf8Error) : Plain P (Display.utf8Error e) := by
  unfold Display.utf8Error
  split <;> plain ok

variable {ctx : FrameContext}

theorem nameOf_mem {id : ObjectId} {n : Str} (h : Display.nameOf ctx id = some n) :
    n ∈ ctx.objects := by
  unfold Display.nameOf at h
  split at h
  · exact List.mem_of_getElem? h
  · cases h

theorem name_getD (hn : ∀ n ∈ ctx.objects, Plain P n) (id : ObjectId) {d : Str} (hd : Plain P d) :
    Plain P ((Display.nameOf ctx id).getD d) := by
  cases h : Display.nameOf ctx id with
  | none => exact hd
  | some n => exact hn n (nameOf_mem h)

theorem newActor (ok : Ok P s) (hn : ∀ n ∈ ctx.objects, Plain P n) (a : NewActor) :
    Lines P 9 (Display.newActor (fmt s) ctx a) := by
  unfold Display.newActor Display.objectName
  have h1 : Plain P ((Display.nameOf ctx a.objectId).getD (Display.t "Out of bounds")) :=
    name_getD hn _ (ok.lit _ (by decide +kernel))
  have h2 : Plain P ((a.nameId.map Display.i32).getD (Display.t "<none>")) := by
    cases a.nameId with
    | none => exact ok.lit _ (by decide +kernel)
    | some x => exact ok.i32 x
  refine append (n := 8) (m := 1) (append (n := 7) (m := 1) (append (n := 6) (m := 1)
    (append (n := 5) (m := 1) (append (n := 4) (m := 1) (append (n := 3) (m := 1)
    (append (n := 2) (m := 1) (append (n := 1) (m := 1) (line ?_) (line ?_)) (line ?_)) (line ?_))
    (line ?_)) (line ?_)) (line ?_)) (line ?_)) (line ?_) <;> plain ok

theorem update (ok : Ok P s) (hn : ∀ n ∈ ctx.objects, Plain P n) (u : UpdatedAttribute) :
    Lines P 10 (Display.update (fmt s) ctx u) := by
  unfold Display.update Display.objectName
  have h1 : ∀ id, Plain P ((Display.nameOf ctx id).getD (Display.t "Out of bounds")) :=
    fun id => name_getD hn _ (ok.lit _ (by decide +kernel))
  have h2 := h1 u.objectId
  refine append (n := 9) (m := 1) (append (n := 8) (m := 1) (append (n := 7) (m := 1)
    (append (n := 6) (m := 1) (append (n := 4) (m := 2) (append (n := 3) (m := 1)
    (append (n := 2) (m := 1) (append (n := 1) (m := 1) (line ?_) (line ?_)) (line ?_)) (line ?_))
    ?_) (line ?_)) (line ?_)) (line ?_)) (line ?_)
  case refine_5 =>
    split
    · rename_i obj _
      have := h1 obj
      refine append (n := 1) (m := 1) (line ?_) (line ?_) <;> plain ok
    · refine (line ?_).mono (by decide)
      plain ok
  all_goals plain ok

theorem context (ok : Ok P s) (hn : ∀ n ∈ ctx.objects, Plain P n) :
    Lines P 13 (Display.context (fmt s) ctx) := by
  unfold Display.context
  refine append (n := 1) (m := 12) (line (by plain ok)) ?_
  split
  · exact (update ok hn _).mono (by omega)
  · exact (newActor ok hn _).mono (by omega)
  · refine append (n := 1) (m := 11) (line (by plain ok)) ?_
    split
    · exact nil _
    · refine append (n := 1) (m := 10) (line (by plain ok)) ?_
      split
      · exact (update ok hn _).mono (by omega)
      · exact (newActor ok hn _).mono (by omega)
      · exact (line (by plain ok)).mono (by omega)

theorem join (ok : Ok P s) : ∀ l : List Str, (∀ a ∈ l, Plain P a) → Plain P (Display.join l)
  | [], _ => ok.none
  | [a], h => h a (List.mem_singleton.2 rfl)
  | a :: b :: l, h => by
    rw [Display.join]
    · have h1 := join ok (b :: l) fun x hx => h x (List.mem_cons_of_mem _ hx)
      have h2 := h a List.mem_cons_self
      plain ok
    · intro h; cases h

theorem mem_insertSorted {a b : Str} : ∀ {l : List Str}, b ∈ Display.insertSorted a l → b = a ∨ b ∈ l
  | [], h => .inl (List.mem_singleton.1 h)
  | c :: l, h => by
    rw [Display.insertSorted] at h
    split at h
    · exact List.mem_cons.1 h
    · rcases List.mem_cons.1 h with rfl | h
      · exact .inr List.mem_cons_self
      · exact (mem_insertSorted h).imp id (List.mem_cons_of_mem _)

theorem mem_sort {b : Str} : ∀ {l : List Str}, b ∈ Display.sort l → b ∈ l
  | [], h => h
  | a :: l, h => by
    rcases mem_insertSorted (l := Display.sort l) h with rfl | h
    · exact List.mem_cons_self
    · exact List.mem_cons_of_mem _ (mem_sort h)

theorem mem_dedup {b : Str} : ∀ {l : List Str}, b ∈ Display.dedup l → b ∈ l
  | [], h => h
  | [_], h => h
  | a :: c :: l, h => by
    rw [Display.dedup] at h
    split at h
    · exact List.mem_cons_of_mem _ (mem_dedup h)
    · rcases List.mem_cons.1 h with rfl | h
      · exact List.mem_cons_self
      · exact List.mem_cons_of_mem _ (mem_dedup h)

theorem mem_attrNames {b : Str} {st : StreamId} (h : b ∈ Display.attrNames ctx st) :
    b ∈ ctx.objects := by
  obtain ⟨a, _, ha⟩ := List.mem_filterMap.1 (mem_sort (mem_dedup h))
  exact nameOf_mem ha

theorem contextualize (ok : Ok P s) (hn : ∀ n ∈ ctx.objects, Plain P n) (e : FrameError) :
    Lines P 1 (Display.contextualize (fmt s) e ctx) := by
  have h1 : ∀ st, Plain P (Display.join (Display.unknownNames (Display.attrNames ctx st))) :=
    fun st => join ok _ fun a ha =>
      hn a (mem_attrNames (List.mem_filter.1 (mem_sort (mem_dedup ha))).1)
  have h2 : ∀ st, Plain P (Display.join ((Display.attrNames ctx st).map
      (fun n => Display.t "(" ++ n ++ Display.t ")"))) := by
    refine fun st => join ok _ fun a ha => ?_
    obtain ⟨n, hm, rfl⟩ := List.mem_map.1 ha
    have := hn n (mem_attrNames hm)
    plain ok
  have h3 : ∀ id, Plain P ((Display.nameOf ctx id).getD (Display.t "<none>")) :=
    fun id => name_getD hn _ (ok.lit _ (by decide +kernel))
  have h4 : ∀ id, Plain P ((Display.nameOf ctx id).getD (Display.t "<unknown>")) :=
    fun id => name_getD hn _ (ok.lit _ (by decide +kernel))
  have key : ∀ (obj : ObjectId) (st : StreamId), Lines P 1
      (match (Display.cacheOf ctx obj).bind (fun c => c.attributes.get st) with
      | some a =>
        if a.attr ≠ .notImplemented then
          (Display.t "found attribute (" ++ (fmt s).tag a.attr ++ Display.t ") on "
            ++ (Display.nameOf ctx obj).getD (Display.t "<none>")
            ++ Display.t " in network cache data. ") ++
          (Display.t "searching all attributes with the same stream id, "
            ++ (Display.t "unknown attributes: ["
              ++ Display.join (Display.unknownNames (Display.attrNames ctx st)) ++ Display.t "], ")
            ++ (Display.t "all attributes with that stream id: ["
              ++ Display.join ((Display.attrNames ctx st).map
                (fun n => Display.t "(" ++ n ++ Display.t ")")) ++ Display.t "]. "))
        else Display.line (Display.t "attribute: "
          ++ (Display.nameOf ctx a.objectId).getD (Display.t "<unknown>"))
      | none =>
        (Display.t "did not find attribute id (" ++ Display.i32 st ++ Display.t ") on "
          ++ (Display.nameOf ctx obj).getD (Display.t "<none>")
          ++ Display.t " in object hierarchy: ") ++
          (Display.t "searching all attributes with the same stream id, "
            ++ (Display.t "unknown attributes: ["
              ++ Display.join (Display.unknownNames (Display.attrNames ctx st)) ++ Display.t "], ")
            ++ (Display.t "all attributes with that stream id: ["
              ++ Display.join ((Display.attrNames ctx st).map
                (fun n => Display.t "(" ++ n ++ Display.t ")")) ++ Display.t "]. "))) := by
    intro obj st
    have h1 := h1 st
    have h2 := h2 st
    have h3 := h3 obj
    split
    · split
      · refine Plain.lines ?_ 1
        plain ok
      · rename_i a _ _
        have h4 := h4 a.objectId
        exact line (by plain ok)
    · refine Plain.lines ?_ 1
      plain ok
  cases e with
  | missingCache a obj =>
    show Lines P 1 (match Display.nameOf ctx obj with
      | some n => Display.t "(" ++ n ++ Display.t ")"
      | none => [])
    split
    · rename_i n hq
      have := hn n (nameOf_mem hq)
      refine Plain.lines ?_ 1
      plain ok
    · exact nil _
  | missingAttribute a obj st => exact key obj st
  | attributeError a obj st x => exact key obj st
  | _ => exact nil _

/-- A name is made of visible ASCII characters. -/
def asciiName (m : String) : Bool := m.toList.all fun c => decide (32 ≤ c.toNat ∧ c.toNat < 127)

/-- The names that are told are made of visible ASCII characters. -/
def asciiTold : Told → Bool
  | .part m => asciiName m
  | .corrupt m => asciiName m
  | .inFrame m => asciiName m
  | .inAttribute m => asciiName m
  | _ => true

set_option maxRecDepth 100000 in
theorem allTold_ascii : (allTold.all asciiTold) = true := by decide +kernel

theorem told_ascii {t : Told} (h : t ∈ allTold) : asciiTold t = true :=
  List.all_eq_true.1 allTold_ascii t h

theorem attributeError (ok : Ok P s) {e : AttributeError} (h : AttributeError.told e ∈ allTold) :
    Plain P (Display.attributeError e) := by
  unfold Display.attributeError
  split
  · have := ok.lit _ (told_ascii h)
    plain ok
  all_goals plain ok

theorem frameError (ok : Ok P s) {e : FrameError} (h : FrameError.told e ∈ allTold) :
    Lines P 5 (Display.frameError (fmt s) e) := by
  unfold Display.frameError
  split
  · have := ok.lit _ (told_ascii h)
    refine Plain.lines ?_ _
    plain ok
  case h_7 =>
    refine append (n := 4) (m := 1) (append (n := 3) (m := 1) (append (n := 2) (m := 1)
      (append (n := 1) (m := 1) (line ?_) (line ?_)) (line ?_)) (line ?_)) (line ?_) <;> plain ok
  case h_8 =>
    have := attributeError ok h
    refine Plain.lines ?_ _
    plain ok
  all_goals
    refine Plain.lines ?_ _
    plain ok

theorem networkError (ok : Ok P s) {e : NetworkError} (h : NetworkError.told e ∈ allTold)
    (hn : ∀ n ∈ rawNames (.networkError e), Plain P n) :
    Lines P 20 (Display.networkError (fmt s) e) := by
  cases e with
  | frameError e ctx =>
    unfold Display.networkError
    refine append (n := 7) (m := 13) (append (n := 6) (m := 1) (append (n := 5) (m := 1)
      (append (n := 5) (m := 0) (append (n := 0) (m := 5) (Plain.lines ?_ _) (frameError ok h)) ?_)
      (contextualize ok hn e)) (line ?_)) (context ok hn)
    case refine_2 =>
      split
      · exact nil _
      · refine Plain.lines ?_ _
        plain ok
    all_goals plain ok
  | _ =>
    unfold Display.networkError
    refine Plain.lines ?_ _
    plain ok

theorem parseError (ok : Ok P s) : ∀ {e : ParseError}, (∀ t ∈ tells e, t ∈ allTold) →
    (∀ n ∈ rawNames e, Plain P n) → Lines P 20 (Display.parseError (fmt s) e)
  | .networkError e, h, hn => networkError ok (h _ List.mem_cons_self) hn
  | .parseError m o e, h, hn => by
    have h1 := ok.lit _ (told_ascii (h (.part m) List.mem_cons_self))
    have h2 := parseError ok (fun t ht => h t (List.mem_cons_of_mem _ ht)) hn
    rw [Display.parseError]
    refine append (n := 0) (m := 20) (Plain.lines ?_ _) h2
    plain ok
  | .corruptReplay m e, h, _ => by
    have h1 := ok.lit _ (told_ascii (h (.corrupt m) List.mem_cons_self))
    rw [Display.parseError]
    refine Plain.lines ?_ _
    plain ok
  | .utf8Error e, _, _ => by
    have := utf8Error ok e
    rw [Display.parseError]
    refine Plain.lines ?_ _
    plain ok
  | .unexpectedProperty p, _, hn => by
    have := hn p List.mem_cons_self
    rw [Display.parseError]
    refine Plain.lines ?_ _
    plain ok
  | .textTooLarge n, _, _ | .insufficientData n m, _, _ | .crcMismatch n m, _, _
  | .listTooLarge n, _, _ => by
    rw [Display.parseError]
    refine Plain.lines ?_ _
    plain ok

end Boxcars.Lines
