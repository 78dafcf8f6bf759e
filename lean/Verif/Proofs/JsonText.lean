import Verif.Proofs.Json
import Verif.Proofs.Schema
import Verif.Proofs.Serde
/-!
# The texts written are JSON; what they keep
-/
namespace Boxcars.Json
open Boxcars Spec Spec.Json

/-! ### Strings and numbers -/

theorem escape_control (n : Nat) (h : n < 32) : 
    hexValue (hexDigit (n / 16)) = some (n / 16) ∧ hexValue (hexDigit (n % 16)) = some (n % 16) := by
  have : ∀ n < 32, hexValue (hexDigit (n / 16)) = some (n / 16) ∧
    hexValue (hexDigit (n % 16)) = some (n % 16) := by decide
  exact this n h

theorem escapeChar_text (c : Char) : CharText c (escapeChar c) := by
  unfold escapeChar
  by_cases h1 : c = '"'
  · subst h1; rw [if_pos rfl]; exact .quote
  rw [if_neg h1]
  by_cases h2 : c = '\\'
  · subst h2; rw [if_pos rfl]; exact .backslash
  rw [if_neg h2]
  by_cases h : c.toNat = 8
  · rw [if_pos h]; exact .backspace h
  rw [if_neg h]; clear h
  by_cases h : c.toNat = 9
  · rw [if_pos h]; exact .tab h
  rw [if_neg h]; clear h
  by_cases h : c.toNat = 10
  · rw [if_pos h]; exact .lineFeed h
  rw [if_neg h]; clear h
  by_cases h : c.toNat = 12
  · rw [if_pos h]; exact .formFeed h
  rw [if_neg h]; clear h
  by_cases h : c.toNat = 13
  · rw [if_pos h]; exact .carriageReturn h
  rw [if_neg h]; clear h
  by_cases h : c.toNat < 32
  · rw [if_pos h]
    obtain ⟨h3, h4⟩ := escape_control _ h
    exact .hex ⟨'0', '0', _, _, 0, 0, _, _, rfl, by decide, by decide, h3, h4, by omega⟩
  rw [if_neg h]
  exact .plain (by omega) h1 h2

theorem quoted_text (s : Str) : StringText s (quoted s) := by
  refine ⟨s.flatMap escapeChar, ?_, rfl⟩
  induction s with
  | nil => exact .nil
  | cons c s ih => rw [List.flatMap_cons]; exact .cons (escapeChar_text c) ih

theorem displayNat_int (n : Nat) : IntText (displayNat n) := by
  by_cases h : n = 0
  · subst h; left; decide
  · right
    refine ⟨⟨?_, ?_⟩, display_head n h⟩
    · obtain ⟨d, t, _, e⟩ := decimal_head (decimal_display n); rw [e]; exact List.cons_ne_nil _ _
    · intro c hc
      obtain ⟨d, hd, rfl⟩ := decimal_digits (decimal_display n) c hc
      have : ∀ d < 10, 48 ≤ (digitOf d).toNat ∧ (digitOf d).toNat ≤ 57 := by decide
      exact this d hd

theorem displayInt_number (i : Int) : Number (displayInt i) := by
  unfold displayInt
  split
  · exact ⟨['-'], displayNat i.natAbs, [], [], .inr rfl, displayNat_int _, .inl rfl, .inl rfl, by simp⟩
  · exact ⟨[], displayNat i.natAbs, [], [], .inl rfl, displayNat_int _, .inl rfl, .inl rfl, by simp⟩

theorem intText_eq (i : Int) : intText i = displayInt i := rfl

theorem float_value {fmt : F32 → Str} (hf : FloatText fmt) (x : F32) :
    Value (jval fmt (.f32 x)) (float fmt x) := by
  unfold float
  have e : F32.expField x = fexp x := rfl
  rw [jval]
  by_cases h : F32.expField x = 255
  · rw [if_pos h, if_neg (fun h' : IsFinite x => h' (e ▸ h))]; exact .null
  · have h' : IsFinite x := fun h' => h (e.trans h')
    rw [if_neg h, if_pos h']; exact .num (hf.number x h')

theorem bool_value (b : Bool) : Value (.bool b) (bool b) := by
  cases b
  · exact .false_
  · exact .true_

theorem no_space : Space [] := by simp [Space]

/-! ### In one line -/

mutual
theorem compact_value {fmt : F32 → Str} (hf : FloatText fmt) : ∀ v, Value (jval fmt v) (compact fmt v)
  | .null => by rw [jval, compact]; exact .null
  | .bool b => by rw [jval, compact]; exact bool_value b
  | .int i => by rw [jval, compact]; exact .num (displayInt_number i)
  | .f32 x => by rw [compact]; exact float_value hf x
  | .str s => by rw [jval, compact]; exact .str (quoted_text s)
  | .seq [] => by rw [jval, compact, jvals, compactElems]; exact .noElems no_space
  | .seq (x :: xs) => by
    rw [jval, compact]
    have := compactElems_value hf x xs
    rw [compactElems, if_pos rfl, List.nil_append]
    exact .arr this
  | .map [] => by rw [jval, compact, jfields, compactFields]; exact .noMembers no_space
  | .map ((k, x) :: kvs) => by
    rw [jval, compact]
    have := compactFields_value hf k x kvs
    rw [compactFields, if_pos rfl, List.nil_append]
    exact .obj this
  | .unitVariant n => by rw [jval, compact]; exact .str (quoted_text _)
  | .variant n x => by
    rw [jval, compact]
    have := Members.one no_space (quoted_text n.toList) no_space no_space (compact_value hf x) no_space
    have := Value.obj this
    simpa using this
termination_by v => sizeOf v
theorem compactElems_value {fmt : F32 → Str} (hf : FloatText fmt) : ∀ x xs,
    Elems (jvals fmt (x :: xs)) (compact fmt x ++ compactElems fmt false xs)
  | x, [] => by
    rw [jvals, jvals, compactElems]
    simpa using Elems.one no_space (compact_value hf x) no_space
  | x, y :: ys => by
    rw [jvals, compactElems, if_neg (by decide)]
    have := Elems.more no_space (compact_value hf x) no_space (compactElems_value hf y ys)
    simpa using this
termination_by x xs => 1 + sizeOf x + sizeOf xs
theorem compactFields_value {fmt : F32 → Str} (hf : FloatText fmt) : ∀ k x kvs,
    Members (jfields fmt ((k, x) :: kvs))
      (quoted k.toList ++ ':' :: compact fmt x ++ compactFields fmt false kvs)
  | k, x, [] => by
    rw [jfields, jfields, compactFields]
    simpa using Members.one no_space (quoted_text k.toList) no_space no_space (compact_value hf x) no_space
  | k, x, (k', y) :: ys => by
    rw [jfields, compactFields, if_neg (by decide)]
    have := Members.more no_space (quoted_text k.toList) no_space no_space (compact_value hf x) no_space
      (compactFields_value hf k' y ys)
    simpa using this
termination_by _ x kvs => 1 + sizeOf x + sizeOf kvs
end

/-! ### With line breaks -/

theorem newline_space (n : Nat) : Space (newline n true) := by
  intro c hc
  rw [newline, if_pos rfl, List.singleton_append, List.mem_cons, List.mem_replicate] at hc
  rcases hc with rfl | ⟨_, rfl⟩ <;> simp

theorem newline_comma (n : Nat) : newline n false = ',' :: newline n true := rfl

theorem colon_space : Space [' '] := by simp [Space]

mutual
theorem pretty_value {fmt : F32 → Str} (hf : FloatText fmt) : ∀ n v, Value (jval fmt v) (pretty fmt n v)
  | _, .null => by rw [jval, pretty]; exact .null
  | _, .bool b => by rw [jval, pretty]; exact bool_value b
  | _, .int i => by rw [jval, pretty]; exact .num (displayInt_number i)
  | _, .f32 x => by rw [pretty]; exact float_value hf x
  | _, .str s => by rw [jval, pretty]; exact .str (quoted_text s)
  | _, .seq [] => by rw [jval, pretty, jvals]; exact .noElems no_space
  | n, .seq (x :: xs) => by
    rw [jval, pretty]
    have := Value.arr (prettyElems_value hf n x xs)
    simpa using this
  | _, .map [] => by rw [jval, pretty, jfields]; exact .noMembers no_space
  | n, .map ((k, x) :: kvs) => by
    rw [jval, pretty]
    have := Value.obj (prettyFields_value hf n k x kvs)
    simpa using this
  | _, .unitVariant n => by rw [jval, pretty]; exact .str (quoted_text _)
  | l, .variant n x => by
    rw [jval, pretty]
    have := Members.one (newline_space (l + 1)) (quoted_text n.toList) no_space colon_space
      (pretty_value hf (l + 1) x) (newline_space l)
    have := Value.obj this
    simpa using this
termination_by _ v => sizeOf v
theorem prettyElems_value {fmt : F32 → Str} (hf : FloatText fmt) : ∀ n x xs,
    Elems (jvals fmt (x :: xs)) (newline (n + 1) true ++ pretty fmt (n + 1) x ++
      (prettyElems fmt (n + 1) xs ++ newline n true))
  | n, x, [] => by
    rw [jvals, jvals, prettyElems]
    exact Elems.one (newline_space _) (pretty_value hf _ x) (newline_space _)
  | n, x, y :: ys => by
    rw [jvals, prettyElems, newline_comma]
    have := Elems.more (newline_space (n + 1)) (pretty_value hf (n + 1) x) no_space
      (prettyElems_value hf n y ys)
    simpa using this
termination_by _ x xs => 1 + sizeOf x + sizeOf xs
theorem prettyFields_value {fmt : F32 → Str} (hf : FloatText fmt) : ∀ n k x kvs,
    Members (jfields fmt ((k, x) :: kvs)) (newline (n + 1) true ++ quoted k.toList ++
      ([':', ' '] ++ pretty fmt (n + 1) x ++ (prettyFields fmt (n + 1) kvs ++ newline n true)))
  | n, k, x, [] => by
    rw [jfields, jfields, prettyFields]
    have := Members.one (newline_space (n + 1)) (quoted_text k.toList) no_space colon_space
      (pretty_value hf (n + 1) x) (newline_space n)
    simpa using this
  | n, k, x, (k', y) :: ys => by
    rw [jfields, prettyFields, newline_comma]
    have := Members.more (newline_space (n + 1)) (quoted_text k.toList) no_space colon_space
      (pretty_value hf (n + 1) x) no_space (prettyFields_value hf n k' y ys)
    simpa using this
termination_by _ _ x kvs => 1 + sizeOf x + sizeOf kvs
end

theorem compact_text {fmt : F32 → Str} (hf : FloatText fmt) (v : SVal) : Text (jval fmt v) (compact fmt v) :=
  ⟨[], _, [], no_space, compact_value hf v, no_space, by simp⟩

theorem pretty_text {fmt : F32 → Str} (hf : FloatText fmt) (v : SVal) : Text (jval fmt v) (pretty fmt 0 v) :=
  ⟨[], _, [], no_space, pretty_value hf 0 v, no_space, by simp⟩

/-! ### What is kept -/

mutual
/-- A value with its variants written as texts and maps. -/
def strip : SVal → SVal
  | .null => .null
  | .bool b => .bool b
  | .int i => .int i
  | .f32 x => .f32 x
  | .str s => .str s
  | .seq xs => .seq (strips xs)
  | .map kvs => .map (stripFields kvs)
  | .unitVariant name => .str name.toList
  | .variant name x => .map [(name, strip x)]
/-- Elements. -/
def strips : List SVal → List SVal
  | [] => []
  | x :: xs => strip x :: strips xs
/-- Fields. -/
def stripFields : List (String × SVal) → List (String × SVal)
  | [] => []
  | (k, x) :: kvs => (k, strip x) :: stripFields kvs
end

theorem not_marked (i : Int) {c : Char} (hc : c ∈ displayInt i) : ¬(c = '.' ∨ c = 'e' ∨ c = 'E') := by
  rintro (rfl | rfl | rfl)
  · exact displayInt_free (by decide) (by decide) i hc
  · exact displayInt_free (by decide) (by decide) i hc
  · exact displayInt_free (by decide) (by decide) i hc

theorem int_ne_float {fmt : F32 → Str} (hf : FloatText fmt) {x : F32} (hx : IsFinite x) (i : Int) :
    displayInt i ≠ fmt x := by
  intro e
  obtain ⟨c, hc, hm⟩ := hf.mark x hx
  exact not_marked i (e ▸ hc) hm

open Classical in
/-- The number a text stands for. -/
noncomputable def backNum (fmt : F32 → Str) (t : Str) : SVal :=
  if h : ∃ x, IsFinite x ∧ fmt x = t then .f32 h.choose
  else if h : ∃ i, displayInt i = t then .int h.choose
  else .null

mutual
/-- The stripped value from its JSON. -/
noncomputable def back (fmt : F32 → Str) : JVal → SVal
  | .null => .null
  | .bool b => .bool b
  | .num t => backNum fmt t
  | .str s => .str s
  | .arr xs => .seq (backs fmt xs)
  | .obj kvs => .map (backFields fmt kvs)
/-- Elements. -/
noncomputable def backs (fmt : F32 → Str) : List JVal → List SVal
  | [] => []
  | x :: xs => back fmt x :: backs fmt xs
/-- Fields. -/
noncomputable def backFields (fmt : F32 → Str) : List (Str × JVal) → List (String × SVal)
  | [] => []
  | (k, x) :: kvs => (String.ofList k, back fmt x) :: backFields fmt kvs
end

theorem backNum_float {fmt : F32 → Str} (hf : FloatText fmt) {x : F32} (hx : IsFinite x) :
    backNum fmt (fmt x) = .f32 x := by
  have h : ∃ y, IsFinite y ∧ fmt y = fmt x := ⟨x, hx, rfl⟩
  unfold backNum
  rw [dif_pos h]
  obtain ⟨h1, h2⟩ := h.choose_spec
  rw [hf.inj _ _ h1 hx h2]

theorem backNum_int {fmt : F32 → Str} (hf : FloatText fmt) (i : Int) :
    backNum fmt (displayInt i) = .int i := by
  have h : ¬∃ y, IsFinite y ∧ fmt y = displayInt i :=
    fun ⟨y, h1, h2⟩ => int_ne_float hf h1 i h2.symm
  have h' : ∃ j, displayInt j = displayInt i := ⟨i, rfl⟩
  unfold backNum
  rw [dif_neg h, dif_pos h', displayInt_inj h'.choose_spec]

mutual
theorem back_jval {fmt : F32 → Str} (hf : FloatText fmt) : ∀ v, back fmt (jval fmt v) = strip (toJson v)
  | .null => by rw [jval, back, toJson, strip]
  | .bool b => by rw [jval, back, toJson, strip]
  | .int i => by rw [jval, back, toJson, strip, intText_eq, backNum_int hf]
  | .f32 x => by
    rw [jval, toJson]
    by_cases h : x.toNat / 2 ^ 23 % 256 = 255
    · rw [if_neg (fun h' : IsFinite x => h' h), if_pos h, back, strip]
    · rw [if_pos (show IsFinite x from h), if_neg h, back, strip, backNum_float hf h]
  | .str s => by rw [jval, back, toJson, strip]
  | .seq xs => by rw [jval, back, toJson, strip, back_jvals hf xs]
  | .map kvs => by rw [jval, back, toJson, strip, back_jfields hf kvs]
  | .unitVariant n => by rw [jval, back, toJson, strip]
  | .variant n v => by
    rw [jval, back, backFields, backFields, toJson, strip, back_jval hf v, String.ofList_toList]
theorem back_jvals {fmt : F32 → Str} (hf : FloatText fmt) : ∀ xs : List SVal,
    backs fmt (jvals fmt xs) = strips (toJsons xs)
  | [] => by rw [jvals, backs, toJsons, strips]
  | v :: xs => by rw [jvals, backs, toJsons, strips, back_jval hf v, back_jvals hf xs]
theorem back_jfields {fmt : F32 → Str} (hf : FloatText fmt) : ∀ kvs : List (String × SVal),
    backFields fmt (jfields fmt kvs) = stripFields (toJsonFields kvs)
  | [] => by rw [jfields, backFields, toJsonFields, stripFields]
  | (k, v) :: kvs => by
    rw [jfields, backFields, toJsonFields, stripFields, back_jval hf v, back_jfields hf kvs,
      String.ofList_toList]
end

mutual
theorem jval_toJson {fmt : F32 → Str} : ∀ v, jval fmt (toJson v) = jval fmt v
  | .null => by rw [toJson]
  | .bool b => by rw [toJson]
  | .int i => by rw [toJson]
  | .f32 x => by
    rw [jval, toJson]
    by_cases h : x.toNat / 2 ^ 23 % 256 = 255
    · rw [if_neg (fun h' : IsFinite x => h' h), if_pos h, jval]
    · rw [if_neg h, jval]
  | .str s => by rw [toJson]
  | .seq xs => by rw [toJson, jval, jval, jvals_toJson xs]
  | .map kvs => by rw [toJson, jval, jval, jfields_toJson kvs]
  | .unitVariant n => by rw [toJson]
  | .variant n v => by rw [toJson, jval, jval, jval_toJson v]
theorem jvals_toJson {fmt : F32 → Str} : ∀ xs : List SVal, jvals fmt (toJsons xs) = jvals fmt xs
  | [] => by rw [toJsons]
  | v :: xs => by rw [toJsons, jvals, jvals, jval_toJson v, jvals_toJson xs]
theorem jfields_toJson {fmt : F32 → Str} : ∀ kvs : List (String × SVal),
    jfields fmt (toJsonFields kvs) = jfields fmt kvs
  | [] => by rw [toJsonFields]
  | (k, v) :: kvs => by rw [toJsonFields, jfields, jfields, jval_toJson v, jfields_toJson kvs]
end

mutual
theorem pretty_toJson {fmt : F32 → Str} : ∀ n v, pretty fmt n (toJson v) = pretty fmt n v
  | _, .null => by rw [toJson]
  | _, .bool b => by rw [toJson]
  | _, .int i => by rw [toJson]
  | _, .f32 x => by
    rw [pretty, toJson, float]
    by_cases h : x.toNat / 2 ^ 23 % 256 = 255
    · rw [if_pos h, if_pos (show F32.expField x = 255 from h), pretty]
    · rw [if_neg h, if_neg (show ¬F32.expField x = 255 from h), pretty, float,
        if_neg (show ¬F32.expField x = 255 from h)]
  | _, .str s => by rw [toJson]
  | _, .seq [] => by rw [toJson, toJsons]
  | n, .seq (x :: xs) => by
    rw [toJson, toJsons, pretty, pretty, pretty_toJson (n + 1) x, prettyElems_toJson (n + 1) xs]
  | _, .map [] => by rw [toJson, toJsonFields]
  | n, .map ((k, x) :: kvs) => by
    rw [toJson, toJsonFields, pretty, pretty, pretty_toJson (n + 1) x, prettyFields_toJson (n + 1) kvs]
  | _, .unitVariant n => by rw [toJson]
  | n, .variant _ v => by rw [toJson, pretty, pretty, pretty_toJson (n + 1) v]
theorem prettyElems_toJson {fmt : F32 → Str} : ∀ n (xs : List SVal),
    prettyElems fmt n (toJsons xs) = prettyElems fmt n xs
  | _, [] => by rw [toJsons]
  | n, v :: xs => by
    rw [toJsons, prettyElems, prettyElems, pretty_toJson n v, prettyElems_toJson n xs]
theorem prettyFields_toJson {fmt : F32 → Str} : ∀ n (kvs : List (String × SVal)),
    prettyFields fmt n (toJsonFields kvs) = prettyFields fmt n kvs
  | _, [] => by rw [toJsonFields]
  | n, (k, v) :: kvs => by
    rw [toJsonFields, prettyFields, prettyFields, pretty_toJson n v, prettyFields_toJson n kvs]
end

theorem strip_of_jval {fmt : F32 → Str} (hf : FloatText fmt) {v w : SVal}
    (e : jval fmt v = jval fmt w) : strip (toJson v) = strip (toJson w) := by
  rw [← back_jval hf v, ← back_jval hf w, e]

/-! ### Shapes tell variants from maps -/

mutual
/-- The variants of an enum have different names, and so within. -/
def okShape : Shape → Bool
  | .opt s => okShape s
  | .list s => okShape s
  | .tuple ss => okShapes ss
  | .struct fs => okFields fs
  | .enum vs => decide (vs.map Prod.fst).Nodup && okVariants vs
  | _ => true
/-- Each. -/
def okShapes : List Shape → Bool
  | [] => true
  | s :: ss => okShape s && okShapes ss
/-- Each. -/
def okFields : List (String × Shape) → Bool
  | [] => true
  | (_, s) :: ss => okShape s && okFields ss
/-- Each. -/
def okVariants : List (String × Option Shape) → Bool
  | [] => true
  | (_, none) :: ss => okVariants ss
  | (_, some s) :: ss => okShape s && okVariants ss
end

theorem okVariants_mem : ∀ {vs : List (String × Option Shape)}, okVariants vs = true → ∀ {n s},
    (n, some s) ∈ vs → okShape s = true
  | [], _, _, _, hm => absurd hm List.not_mem_nil
  | (k, none) :: vs, h, n, s, hm => by
    rw [okVariants] at h
    rcases List.mem_cons.1 hm with h' | h'
    · cases h'
    · exact okVariants_mem h h'
  | (k, some s') :: vs, h, n, s, hm => by
    rw [okVariants, Bool.and_eq_true] at h
    rcases List.mem_cons.1 hm with h' | h'
    · cases h'; exact h.1
    · exact okVariants_mem h.2 h'

theorem nodup_variant : ∀ {vs : List (String × Option Shape)}, (vs.map Prod.fst).Nodup → ∀ {n a b},
    (n, a) ∈ vs → (n, b) ∈ vs → a = b
  | [], _, _, _, _, hm, _ => absurd hm List.not_mem_nil
  | (k, s) :: vs, h, n, a, b, ha, hb => by
    rw [List.map_cons, List.nodup_cons] at h
    rcases List.mem_cons.1 ha with h1 | h1 <;> rcases List.mem_cons.1 hb with h2 | h2
    · cases h1; cases h2; rfl
    · cases h1; exact absurd (List.mem_map.2 ⟨_, h2, rfl⟩) h.1
    · cases h2; exact absurd (List.mem_map.2 ⟨_, h1, rfl⟩) h.1
    · exact nodup_variant h.2 h1 h2

mutual
theorem strip_prop : ∀ p, strip (toJson (serProp p)) = toJson (serProp p)
  | .array a => by rw [serProp, toJson, strip, strip_elems a]
  | .struct n f => by
    simp only [serProp, toJson, toJsonFields, strip, stripFields, strip_props f]
  | .byte k v => by cases v <;> rfl
  | .bool b => rfl
  | .float f => by rw [serProp, toJson]; split <;> rfl
  | .int f => rfl
  | .qword f => rfl
  | .name f => rfl
  | .str f => rfl
theorem strip_props : ∀ l, stripFields (toJsonFields (stringKeys (serProps l))) =
    toJsonFields (stringKeys (serProps l))
  | [] => rfl
  | (k, v) :: l => by
    rw [serProps, stringKeys, toJsonFields, stripFields, strip_prop v, strip_props l]
theorem strip_elems : ∀ l, strips (toJsons (serElems l)) = toJsons (serElems l)
  | [] => rfl
  | e :: l => by rw [serElems, toJsons, strips, toJson, strip, strip_props e, strip_elems l]
end

theorem strip_has_prop {j : SVal} (h : Has .prop j) : strip (toJson j) = toJson j := by
  obtain ⟨p, rfl⟩ := prop_of_has j h
  exact strip_prop p

theorem strip_has_props {j : SVal} (h : Has .props j) : strip (toJson j) = toJson j := by
  obtain ⟨p, rfl⟩ := (props_fits j).1 h
  show strip (toJson (.map (stringKeys (serProps p)))) = toJson (.map (stringKeys (serProps p)))
  rw [toJson, strip, strip_props p]

theorem strip_null {j : SVal} (h : strip j = .null) : j = .null := by
  cases j <;> simp [strip] at h
  rfl

theorem strips_list : ∀ {js js' : List SVal},
    (∀ j ∈ js, ∀ j' ∈ js', strip (toJson j) = strip (toJson j') → toJson j = toJson j') →
    strips (toJsons js) = strips (toJsons js') → toJsons js = toJsons js'
  | [], [], _, _ => rfl
  | [], _ :: _, _, e => by simp [strips, toJsons] at e
  | _ :: _, [], _, e => by simp [strips, toJsons] at e
  | j :: js, j' :: js', h, e => by
    simp only [strips, toJsons, List.cons.injEq] at e
    rw [toJsons, toJsons, h j (.head _) j' (.head _) e.1,
      strips_list (fun a ha b hb => h a (.tail _ ha) b (.tail _ hb)) e.2]

theorem has_strip {s : Shape} {j : SVal} (h : Has s j) : okShape s = true → ∀ j', Has s j' →
    strip (toJson j) = strip (toJson j') → toJson j = toJson j' := by
  refine Has.rec
    (motive_1 := fun s j _ => okShape s = true → ∀ j', Has s j' →
      strip (toJson j) = strip (toJson j') → toJson j = toJson j')
    (motive_2 := fun ss js _ => okShapes ss = true → ∀ js', HasAll ss js' →
      strips (toJsons js) = strips (toJsons js') → toJsons js = toJsons js')
    (motive_3 := fun fs kvs _ => okFields fs = true → ∀ kvs', HasFields fs kvs' →
      stripFields (toJsonFields kvs) = stripFields (toJsonFields kvs') →
      toJsonFields kvs = toJsonFields kvs')
    ?_ ?_ ?_ ?_ ?_ ?_ ?_ ?_ ?_ ?_ ?_ ?_ ?_ ?_ ?_ ?_ ?_ ?_ ?_ ?_ ?_ h
  · intro b _ j' h' e; cases h'; simpa [strip, toJson] using e
  · intro w n _ _ j' h' e; cases h'; simpa [strip, toJson] using e
  · intro w i _ _ _ j' h' e; cases h'; simpa [strip, toJson] using e
  · intro x _ j' h' e
    cases h'
    have k : ∀ y : F32, strip (toJson (.f32 y)) = toJson (.f32 y) := by
      intro y; rw [toJson]; split <;> rfl
    rwa [k, k] at e
  · intro x _ j' h' e; cases h'; simpa [strip, toJson] using e
  · intro n _ _ j' h' e; cases h'; simpa [strip, toJson] using e
  · intro n _ _ j' h' e; cases h' <;> simpa [strip, toJson] using e
  · intro n _ _ _ j' h' e; cases h' <;> simpa [strip, toJson] using e
  · intro s _ j' h' e
    rw [toJson, strip] at e
    rw [toJson, strip_null e.symm]
  · intro s j hj ih hs j' h' e
    cases h' with
    | absent =>
      rw [toJson, strip] at e
      rw [toJson, strip_null e]
    | present h' => exact ih (by simpa [okShape] using hs) _ h' e
  · intro s js hj ih hs j' h' e
    cases h' with
    | list h' =>
      simp only [strip, toJson, SVal.seq.injEq] at e ⊢
      exact strips_list (fun a ha b hb => ih a ha (by simpa [okShape] using hs) b (h' b hb)) e
  · intro ss js hj ih hs j' h' e
    cases h' with
    | tuple h' =>
      simp only [strip, toJson, SVal.seq.injEq] at e ⊢
      exact ih (by simpa [okShape] using hs) _ h' e
  · intro fs kvs hj ih hs j' h' e
    cases h' with
    | struct h' =>
      simp only [strip, toJson, SVal.map.injEq] at e ⊢
      exact ih (by simpa [okShape] using hs) _ h' e
  · intro vs n hm hs j' h' e
    cases h' with
    | unitVariant h' =>
      simp only [strip, toJson, SVal.str.injEq] at e
      rw [String.toList_inj.1 e]
    | variant => simp [strip, toJson] at e
  · intro vs n s j hm hj ih hs j' h' e
    rw [okShape, Bool.and_eq_true, decide_eq_true_eq] at hs
    cases h' with
    | unitVariant h' => simp [strip, toJson] at e
    | variant hm' h' =>
      simp only [strip, toJson, SVal.map.injEq, List.cons.injEq, Prod.mk.injEq, and_true] at e
      obtain ⟨rfl, e⟩ := e
      cases nodup_variant hs.1 hm hm'
      rw [toJson, toJson, ih (okVariants_mem hs.2 hm) _ h' e]
  · intro s j hm hj ih _ j' h' e
    rwa [strip_has_prop (.prop hm hj), strip_has_prop h'] at e
  · intro kvs h ih _ j' h' e
    rwa [strip_has_props (.props h), strip_has_props h'] at e
  · intro _ js' h' _; cases h'; rfl
  · intro s ss j js hj hjs ih ihs hs js' h' e
    rw [okShapes, Bool.and_eq_true] at hs
    cases h' with
    | cons h1 h2 =>
      simp only [strips, toJsons, List.cons.injEq] at e ⊢
      exact ⟨ih hs.1 _ h1 e.1, ihs hs.2 _ h2 e.2⟩
  · intro _ js' h' _; cases h'; rfl
  · intro k s ss j js hj hjs ih ihs hs js' h' e
    rw [okFields, Bool.and_eq_true] at hs
    cases h' with
    | cons h1 h2 =>
      simp only [stripFields, toJsonFields, List.cons.injEq, Prod.mk.injEq, true_and] at e ⊢
      exact ⟨ih hs.1 _ h1 e.1, ihs hs.2 _ h2 e.2⟩

set_option maxRecDepth 100000 in
theorem okReplay : okShape replayShape = true := by decide +kernel

end Boxcars.Json
