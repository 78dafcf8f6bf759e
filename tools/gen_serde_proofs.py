import sys,re
sys.argv=['x']
src=open('/verif/tools/gen_serde.py').read()
# reuse definitions
cut=src.index("for o in order:")
exec(src[:cut])
H='''import Verif.Proofs.Decimal
/-!
# Serialization round trips

The lemmas from "Generated" on follow the generated codecs of `Model/Serde.lean` one by one.
-/
namespace Boxcars

mutual
/-- What `serde_json` makes of a value: floats that are not finite become `null`. -/
def toJson : SVal → SVal
  | .f32 x => if x.toNat / 2 ^ 23 % 256 = 255 then .null else .f32 x
  | .seq xs => .seq (toJsons xs)
  | .map kvs => .map (toJsonFields kvs)
  | .variant n x => .variant n (toJson x)
  | .null => .null
  | .bool b => .bool b
  | .int i => .int i
  | .str s => .str s
  | .unitVariant n => .unitVariant n

/-- Elements of a sequence. -/
def toJsons : List SVal → List SVal
  | [] => []
  | x :: xs => toJson x :: toJsons xs

/-- Fields of a map. -/
def toJsonFields : List (String × SVal) → List (String × SVal)
  | [] => []
  | (k, x) :: xs => (k, toJson x) :: toJsonFields xs
end

/-- All floats in a value are finite. -/
def JsonSafe (s : SVal) : Prop := toJson s = s

/-- A codec without loss: what is written is read, `null` is never written, and the detour
through JSON makes no difference exactly if all floats are finite. -/
structure Lossless {α : Type} (c : Codec α) : Prop where
  rt : ∀ v, c.de (c.ser v) = some v
  nonnull : ∀ v, c.ser v ≠ .null
  json : ∀ v, c.de (toJson (c.ser v)) = some v ↔ JsonSafe (c.ser v)

/-- The same for types written as `null`. -/
structure LosslessOpt {α : Type} (c : Codec α) : Prop where
  rt : ∀ v, c.de (c.ser v) = some v
  json : ∀ v, c.de (toJson (c.ser v)) = some v ↔ JsonSafe (c.ser v)

theorem Lossless.opt {α : Type} {c : Codec α} (h : Lossless c) : LosslessOpt c := ⟨h.rt, h.json⟩

theorem plain_of_rt {α : Type} {c : Codec α} (h : ∀ v, c.de (c.ser v) = some v)
    (hp : ∀ v, toJson (c.ser v) = c.ser v) (v : α) :
    c.de (toJson (c.ser v)) = some v ↔ JsonSafe (c.ser v) := by
  rw [hp, h]; exact ⟨fun _ => hp v, fun _ => rfl⟩

theorem bool_ll : Lossless cBool :=
  ⟨fun _ => rfl, fun _ h => (by cases h), plain_of_rt (fun _ => rfl) (fun _ => (by simp only [cBool, toJson]))⟩

theorem str_ll : Lossless cStr :=
  ⟨fun _ => rfl, fun _ h => (by cases h), plain_of_rt (fun _ => rfl) (fun _ => (by simp only [cStr, toJson]))⟩

theorem unsigned_ll (w : Nat) : Lossless (cUnsigned w) := by
  have h : ∀ v, (cUnsigned w).de ((cUnsigned w).ser v) = some v := by
    intro v
    have := v.isLt
    show (if 0 ≤ (v.toNat : Int) ∧ (v.toNat : Int) < 2 ^ w then some (BitVec.ofInt w v.toNat) else none) = _
    rw [if_pos ⟨by omega, by exact_mod_cast this⟩]
    congr 1
    apply BitVec.eq_of_toNat_eq
    simp
  exact ⟨h, fun _ h => (by cases h), plain_of_rt h (fun _ => (by simp only [cUnsigned, toJson]))⟩

theorem signed_ll (w : Nat) : Lossless (cSigned w) := by
  have h : ∀ v, (cSigned w).de ((cSigned w).ser v) = some v := by
    intro v
    have h1 := BitVec.le_toInt v
    have h2 := BitVec.toInt_lt (x := v)
    show (if -(2 ^ (w - 1) : Int) ≤ v.toInt ∧ v.toInt < 2 ^ (w - 1) then some (BitVec.ofInt w v.toInt) else none) = _
    rw [if_pos ⟨h1, h2⟩, BitVec.ofInt_toInt]
  exact ⟨h, fun _ h => (by cases h), plain_of_rt h (fun _ => (by simp only [cSigned, toJson]))⟩

theorem u8_ll : Lossless cU8 := unsigned_ll 8
theorem i8_ll : Lossless cI8 := signed_ll 8
theorem u16_ll : Lossless cU16 := unsigned_ll 16
theorem u32_ll : Lossless cU32 := unsigned_ll 32
theorem i32_ll : Lossless cI32 := signed_ll 32

theorem f32_ll : Lossless cF32 := by
  refine ⟨fun _ => rfl, fun _ h => (by cases h), fun v => ?_⟩
  unfold JsonSafe
  by_cases hf : v.toNat / 2 ^ 23 % 256 = 255
  · have e : toJson (cF32.ser v) = .null := by
      simp only [cF32, toJson]; rw [if_pos hf]
    rw [e]
    constructor <;> intro h <;> cases h
  · have e : toJson (cF32.ser v) = cF32.ser v := by
      simp only [cF32, toJson]; rw [if_neg hf]
    rw [e]
    exact ⟨fun _ => rfl, fun _ => rfl⟩

theorem u64_rt (v : BitVec 64) : parseU64 (displayNat v.toNat) = some v := by
  have hd := decimal_display v.toNat
  obtain ⟨d, t, h1, h2⟩ := decimal_head hd
  have hp := (parseDigits_iff _ _).2 hd
  unfold parseU64
  rw [h2] at hp ⊢
  have hne := (digitOf_ne h1).1
  have hm : (match digitOf d :: t with
    | '+' :: rest => rest
    | _ => digitOf d :: t) = digitOf d :: t := by
    split
    · rename_i he; exact absurd (List.cons.inj he).1 hne
    · rfl
  show ((parseDigits (match digitOf d :: t with
    | '+' :: rest => rest
    | _ => digitOf d :: t)).bind _) = _
  rw [hm, hp]
  have := v.isLt
  simp [this]

theorem u64_ll : Lossless cU64Str :=
  ⟨u64_rt, fun _ h => (by cases h), plain_of_rt u64_rt (fun _ => (by simp only [cU64Str, toJson]))⟩

theorem i64_rt (v : BitVec 64) : parseI64 (displayInt v.toInt) = some v := by
  have h1 := BitVec.le_toInt v
  have h2 := BitVec.toInt_lt (x := v)
  simp only [Nat.reduceSub] at h1 h2
  unfold displayInt
  split
  · rename_i hneg
    have hp := (parseDigits_iff _ _).2 (decimal_display v.toInt.natAbs)
    show ((parseDigits (displayNat v.toInt.natAbs)).bind _) = _
    rw [hp]
    simp only [Option.bind_some]
    rw [if_pos (by omega)]
    congr 1
    rw [show (-(v.toInt.natAbs : Int)) = v.toInt by omega, BitVec.ofInt_toInt]
  · have hd := decimal_display v.toInt.natAbs
    obtain ⟨d, t, h3, h4⟩ := decimal_head hd
    have hp := (parseDigits_iff _ _).2 hd
    have hne := digitOf_ne h3
    unfold parseI64
    rw [h4] at hp ⊢
    split
    · rename_i he; exact absurd (List.cons.inj he).1 hne.2
    · rename_i he; exact absurd (List.cons.inj he).1 hne.1
    · rw [hp]
      simp only [Option.bind_some]
      rw [if_pos (by omega)]
      congr 1
      apply BitVec.eq_of_toInt_eq
      rw [BitVec.toInt_ofNat', Int.bmod_eq_of_le (by omega) (by omega)]
      omega

theorem i64_ll : Lossless cI64Str :=
  ⟨i64_rt, fun _ h => (by cases h), plain_of_rt i64_rt (fun _ => (by simp only [cI64Str, toJson]))⟩

theorem deAll_iff {α : Type} {c : Codec α} (hc : LosslessOpt c) (xs : List α) :
    deAll c.de (toJsons (xs.map c.ser)) = some xs ↔ toJsons (xs.map c.ser) = xs.map c.ser := by
  induction xs with
  | nil => simp [deAll, toJsons]
  | cons x xs ih =>
    simp only [List.map_cons, toJsons, deAll, List.cons.injEq]
    rw [← ih, ← show c.de (toJson (c.ser x)) = some x ↔ toJson (c.ser x) = c.ser x from hc.json x]
    simp only [Option.bind_eq_bind, Option.bind_eq_some_iff, Option.some.injEq, List.cons.injEq]
    constructor
    · rintro ⟨a, h1, b, h2, rfl, rfl⟩; exact ⟨h1, h2⟩
    · rintro ⟨h1, h2⟩; exact ⟨x, h1, xs, h2, rfl, rfl⟩

theorem deAll_rt {α : Type} {c : Codec α} (hc : LosslessOpt c) (xs : List α) :
    deAll c.de (xs.map c.ser) = some xs := by
  induction xs with
  | nil => rfl
  | cons x xs ih => simp [deAll, hc.rt, ih]

theorem list_ll {α : Type} {c : Codec α} (hc : LosslessOpt c) : Lossless (cList c) := by
  refine ⟨deAll_rt hc, fun _ h => (by cases h), fun v => ?_⟩
  unfold JsonSafe cList
  simp only [toJson, SVal.seq.injEq]
  exact deAll_iff hc v

theorem option_ll {α : Type} {c : Codec α} (hc : Lossless c) : LosslessOpt (cOption c) := by
  have hs : ∀ j, j ≠ SVal.null → (cOption c).de j = (c.de j).map some := by
    intro j hj
    unfold cOption
    cases j <;> first | exact absurd rfl hj | rfl
  constructor
  · intro v
    cases v with
    | none => rfl
    | some x =>
      show (cOption c).de (c.ser x) = _
      rw [hs _ (hc.nonnull x), hc.rt]; rfl
  · intro v
    cases v with
    | none =>
      show (cOption c).de (toJson .null) = _ ↔ toJson .null = .null
      simp only [toJson]
      exact ⟨fun _ => trivial, fun _ => rfl⟩
    | some x =>
      show (cOption c).de (toJson (c.ser x)) = _ ↔ JsonSafe (c.ser x)
      by_cases hn : toJson (c.ser x) = .null
      · rw [hn]
        constructor
        · intro h
          have h : some none = some (some x) := h
          cases h
        · intro h
          unfold JsonSafe at h
          rw [hn] at h
          exact absurd h.symm (hc.nonnull x)
      · rw [hs _ hn, ← hc.json]
        simp

theorem array3_ll {α : Type} {c : Codec α} (hc : LosslessOpt c) : Lossless (cArray3 c) := by
  refine ⟨fun v => ?_, fun _ h => (by cases h), fun v => ?_⟩
  · simp [cArray3, hc.rt]
  · obtain ⟨a, b, d⟩ := v
    unfold JsonSafe cArray3
    simp only [toJson, toJsons, SVal.seq.injEq, List.cons.injEq, and_true]
    have ha := hc.json a
    have hb := hc.json b
    have hd := hc.json d
    unfold JsonSafe at ha hb hd
    rw [← ha, ← hb, ← hd]
    simp only [Option.bind_eq_bind, Option.bind_eq_some_iff, Option.some.injEq, Prod.mk.injEq]
    constructor
    · rintro ⟨x, h1, y, h2, z, h3, rfl, rfl, rfl⟩; exact ⟨h1, h2, h3⟩
    · rintro ⟨h1, h2, h3⟩; exact ⟨_, h1, _, h2, _, h3, rfl, rfl, rfl⟩

theorem field_cons {α : Type} (name k : String) (c : Codec α) (x : SVal)
    (kvs : List (String × SVal)) :
    field name c (.map ((k, x) :: kvs)) = if name = k then c.de x else field name c (.map kvs) := by
  unfold field
  simp only [List.lookup_cons]
  by_cases h : name = k
  · subst h; simp
  · have : (name == k) = false := by simpa using h
    rw [if_neg h]; simp only [this]

theorem element_get {α : Type} {c : Codec α} {i n : Nat} {xs : List SVal} {x : SVal}
    (h : xs[i]? = some x) (hn : xs.length = n) : element i n c (.seq xs) = c.de x := by
  unfold element
  simp only [hn, if_true, h, Option.bind_some]

/-! ### Generated -/

set_option linter.unusedSimpArgs false
set_option maxRecDepth 100000

'''
PN={'cBool':'bool','cU8':'u8','cI8':'i8','cU16':'u16','cU32':'u32','cI32':'i32','cF32':'f32','cStr':'str','cU64Str':'u64','cI64Str':'i64'}
def nm(c):
    # returns (term, isOpt)
    c=c.strip()
    if c in PN: return PN[c]+'_ll',False
    m=re.fullmatch(r'\((\w+) (.*)\)',c)
    if m:
        t,o=nm(m.group(2))
        if m.group(1)=='cOption':
            assert not o
            return f'(option_ll {t})',True
        t=t if o else f'{t}.opt'
        return (f'(list_ll {t})' if m.group(1)=='cList' else f'(array3_ll {t})'),False
    return c[1:]+'_ll',False
out=[]
def es(name):
    fields,_=structs[name]
    n=len(fields)
    cs=[codec(t) for f,t,_ in fields]
    fs=[camel(f) for f,_,_ in fields]
    L=out.append
    L(f'theorem {name}_ll : Lossless c{name} := by')
    L(f'  refine ⟨fun v => ?_, fun _ h => (by cases h), fun v => ?_⟩')
    terms=[nm(c)[0] for c in cs]
    u=sorted(set(terms))
    L(f'  · simp only [c{name}, field_cons, String.reduceEq, if_true, if_false, Option.bind_eq_bind, Option.bind_some, '+', '.join(f'{t}.rt' for t in u)+']')
    L(f'  · unfold JsonSafe c{name}')
    L(f'    simp only [toJson, toJsonFields, SVal.map.injEq, List.cons.injEq, Prod.mk.injEq, true_and, and_true]')
    for i,(t,f) in enumerate(zip(terms,fs)):
        L(f'    rw [← show _ ↔ toJson _ = _ from {t}.json v.{f}]' if False else f'    have h{i} := {t}.json v.{f}')
    L('    unfold JsonSafe at '+' '.join(f'h{i}' for i in range(n)))
    L('    rw ['+', '.join(f'← h{i}' for i in range(n))+']')
    L('    simp only [field_cons, String.reduceEq, if_true, if_false, Option.bind_eq_bind, Option.bind_eq_some_iff, Option.bind_some, Option.some.injEq]')
    L('    constructor')
    L('    · rintro ⟨'+', '.join(f'a{i}, g{i}' for i in range(n))+', rfl⟩; exact ⟨'+', '.join(f'g{i}' for i in range(n))+'⟩')
    L('    · rintro ⟨'+', '.join(f'g{i}' for i in range(n))+'⟩; exact ⟨'+', '.join(f'_, g{i}' for i in range(n))+', rfl⟩')
    L('')
def ee(name):
    vs,_=enum_body(name)
    L=out.append
    rows=[]
    for v,args,disp in vs:
        l=lower(v)
        if not args: rows.append((v,l,'unit',[],[],[])); continue
        if disp:
            c='cI64Str' if args[0]=='i64' else 'cU64Str'
            rows.append((v,l,'one',[c],['x'],[]))
        elif name=='RemoteId' and args[0] in structs:
            fs,_=structs[args[0]]
            rows.append((v,l,'struct',['cU64Str' if d else codec(t) for f,t,d in fs],[f'x{i}' for i in range(len(fs))],[f for f,_,_ in fs]))
        elif len(args)==1: rows.append((v,l,'one',[codec(args[0])],['x'],[]))
        else: rows.append((v,l,'tuple',[codec(t) for t in args],[f'x{i}' for i in range(len(args))],[]))
    for v,l,k,cs,xs,fs in rows:
        if k=='unit':
            L(f'theorem {name}_de_{l} : c{name}.de (.unitVariant "{v}") = some .{l} := by')
            L(f'  simp only [c{name}, String.reduceEq, if_true, if_false]'); L(''); continue
        if k=='one':
            L(f'theorem {name}_de_{l} (j : SVal) : c{name}.de (.variant "{v}" j) = ({cs[0]}.de j).map .{l} := by')
        else:
            L(f'theorem {name}_de_{l} (j : SVal) : c{name}.de (.variant "{v}" j) = (do')
            for i,c in enumerate(cs):
                L(f'    let x{i} ← field "{fs[i]}" {c} j' if k=='struct' else f'    let x{i} ← element {i} {len(cs)} {c} j')
            L(f'    some (.{l} {" ".join(xs)})) := by')
        L(f'  simp only [c{name}, String.reduceEq, if_true, if_false]'); L('')
    L(f'theorem {name}_rt (v : {name}) : c{name}.de (c{name}.ser v) = some v := by')
    L(f'  · cases v with')
    for v,l,k,cs,xs,fs in rows:
        ts=sorted(set(nm(c)[0] for c in cs))
        if k=='unit':
            L(f'    | {l} => rw [show c{name}.ser .{l} = .unitVariant "{v}" from rfl, {name}_de_{l}]')
        elif k=='one':
            L(f'    | {l} x =>')
            L(f'      rw [show c{name}.ser (.{l} x) = .variant "{v}" ({cs[0]}.ser x) from rfl, {name}_de_{l}, {ts[0]}.rt]')
            L(f'      rfl')
        else:
            L(f'    | {l} {" ".join(xs)} =>')
            if k=='struct':
                body='.map ['+', '.join(f'("{f}", {c}.ser {x})' for f,c,x in zip(fs,cs,xs))+']'
            else:
                body='.seq ['+', '.join(f'{c}.ser {x}' for c,x in zip(cs,xs))+']'
            L(f'      rw [show c{name}.ser (.{l} {" ".join(xs)}) = .variant "{v}" ({body}) from rfl, {name}_de_{l}]')
            if k=='tuple':
                for i,c in enumerate(cs):
                    L(f'      have e{i} : element {i} {len(cs)} {c} (.seq ['+', '.join(f'{c2}.ser {x2}' for c2,x2 in zip(cs,xs))+f']) = some {xs[i]} := (element_get rfl rfl).trans ({nm(c)[0]}.rt _)')
                L('      simp only ['+', '.join(f'e{i}' for i in range(len(cs)))+', Option.bind_eq_bind, Option.bind_some]')
                continue
            L(f'      simp only [field_cons, element, String.reduceEq, if_true, if_false, Option.bind_eq_bind, Option.bind_some, List.length_cons, List.length_nil, Nat.reduceAdd, List.getElem?_cons_zero, List.getElem?_cons_succ'+''.join(f', {t}.rt' for t in ts)+']')
    L('')
    L(f'theorem {name}_nonnull (v : {name}) : c{name}.ser v ≠ .null := by')
    L(f'  cases v <;> exact SVal.noConfusion')
    L('')
    L(f'theorem {name}_json (v : {name}) : c{name}.de (toJson (c{name}.ser v)) = some v ↔ toJson (c{name}.ser v) = c{name}.ser v := by')
    L(f'  · cases v with')
    for v,l,k,cs,xs,fs in rows:
        ts=[nm(c)[0] for c in cs]; n=len(cs)
        if k=='unit':
            L(f'    | {l} =>')
            L(f'      have e : toJson (c{name}.ser .{l}) = .unitVariant "{v}" := by')
            L(f'        simp only [show c{name}.ser .{l} = .unitVariant "{v}" from rfl, toJson]')
            L(f'      rw [e, {name}_de_{l}]')
            L(f'      exact ⟨fun _ => rfl, fun _ => rfl⟩')
            continue
        if k=='one':
            L(f'    | {l} x =>')
            L(f'      have h := {ts[0]}.json x')
            L(f'      unfold JsonSafe at h')
            L(f'      rw [show c{name}.ser (.{l} x) = .variant "{v}" ({cs[0]}.ser x) from rfl]')
            L(f'      simp only [toJson, SVal.variant.injEq, true_and]')
            L(f'      rw [← h, {name}_de_{l}]')
            L(f'      simp only [Option.map_eq_some_iff, {name}.{l}.injEq, exists_eq_right]')
            continue
        L(f'    | {l} {" ".join(xs)} =>')
        for i,t in enumerate(ts): L(f'      have h{i} := {t}.json {xs[i]}')
        L('      unfold JsonSafe at '+' '.join(f'h{i}' for i in range(n)))
        if k=='struct':
            body='.map ['+', '.join(f'("{f}", {c}.ser {x})' for f,c,x in zip(fs,cs,xs))+']'
        else:
            body='.seq ['+', '.join(f'{c}.ser {x}' for c,x in zip(cs,xs))+']'
        L(f'      rw [show c{name}.ser (.{l} {" ".join(xs)}) = .variant "{v}" ({body}) from rfl]')
        L(f'      simp only [toJson, toJsons, toJsonFields, SVal.variant.injEq, SVal.map.injEq, SVal.seq.injEq, List.cons.injEq, Prod.mk.injEq, true_and, and_true]')
        L('      rw ['+', '.join(f'← h{i}' for i in range(n))+f', {name}_de_{l}]')
        if k=='tuple':
            for i,c in enumerate(cs):
                L(f'      have e{i} : element {i} {len(cs)} {c} (.seq ['+', '.join(f'toJson ({c2}.ser {x2})' for c2,x2 in zip(cs,xs))+f']) = {c}.de (toJson ({c}.ser {xs[i]})) := element_get rfl rfl')
            L('      simp only ['+', '.join(f'e{i}' for i in range(len(cs)))+', Option.bind_eq_bind, Option.bind_eq_some_iff, Option.some.injEq]')
        else: L('      simp only [field_cons, element, String.reduceEq, List.length_cons, List.length_nil, Nat.reduceAdd, List.getElem?_cons_zero, List.getElem?_cons_succ, if_true, if_false, Option.bind_eq_bind, Option.bind_eq_some_iff, Option.bind_some, Option.some.injEq]')
        L('      constructor')
        L('      · rintro ⟨'+', '.join(f'a{i}, g{i}' for i in range(n))+', e⟩; cases e; exact ⟨'+', '.join(f'g{i}' for i in range(n))+'⟩')
        L('      · rintro ⟨'+', '.join(f'g{i}' for i in range(n))+'⟩; exact ⟨'+', '.join(f'_, g{i}' for i in range(n))+', rfl⟩')
    L('')
    L(f'theorem {name}_ll : Lossless c{name} := ⟨{name}_rt, {name}_nonnull, {name}_json⟩')
    L('')
for o in order:
    if o[0]=='@': ee(o[1:])
    else: es(o)
open('/verif/lean/Verif/Proofs/Serde.lean','w').write(H+'\n'.join(out)+'\nend Boxcars\n')
