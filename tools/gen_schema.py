#!/usr/bin/env python3
"""Generate lean/Verif/Spec/Schema.lean and lean/Verif/Proofs/Schema.lean from the
types of the crate (read as text)."""
import re

HERE = '/verif/tools/'
SRC = {f: open('/repo/' + f).read() for f in
       ('src/network/attributes.rs', 'src/network/models.rs', 'src/models.rs')}

PRIM = {'bool': '.bool', 'u8': '(.unsigned 8)', 'i8': '(.signed 8)', 'u16': '(.unsigned 16)',
        'i32': '(.signed 32)', 'u32': '(.unsigned 32)', 'f32': '.f32', 'String': '.text',
        'ActorId': '(.signed 32)', 'ObjectId': '(.signed 32)', 'StreamId': '(.signed 32)'}
FIT = {'bool': 'bool_fits', 'u8': '(unsigned_fits 8)', 'i8': '(signed_fits 8 (by decide))',
       'u16': '(unsigned_fits 16)', 'i32': '(signed_fits 32 (by decide))',
       'u32': '(unsigned_fits 32)', 'f32': 'f32_fits', 'String': 'str_fits',
       'ActorId': '(signed_fits 32 (by decide))', 'ObjectId': '(signed_fits 32 (by decide))',
       'StreamId': '(signed_fits 32 (by decide))'}

def low(s): return s[0].lower() + s[1:]
def camel(s):
    p = s.split('_')
    r = p[0] + ''.join(x.capitalize() for x in p[1:])
    return {'attribute': 'attr', 'class': 'cls'}.get(r, r)
def ctor(s): return {'QWord': 'qWord', 'QQ': 'qq'}.get(s, low(s))

def shape(t, disp=False):
    t = t.strip()
    if disp: return '.i64' if t == 'i64' else '.u64'
    if t in PRIM: return PRIM[t]
    for p, s in ((r'Box<(.*)>', None), (r'Option<(.*)>', 'opt'), (r'Vec<(.*)>', 'list')):
        m = re.fullmatch(p, t)
        if m:
            x = shape(m.group(1))
            return x if s is None else f'(.{s} {x})'
    m = re.fullmatch(r'\[(.*); (\d+)\]', t)
    if m: return '(.tuple [' + ', '.join([shape(m.group(1))] * int(m.group(2))) + '])'
    return low(t) + 'Shape'

def fit(t, disp=False):
    t = t.strip()
    m = re.fullmatch(r'(Option|Vec)<(\w+)>', t)
    if m and m.group(2) in FILE:
        return f"({'opt' if m.group(1) == 'Option' else 'seq'}_fits {low(m.group(2))}_fits)"
    if disp: return 'i64_fits' if t == 'i64' else 'u64_fits'
    if t in FIT: return FIT[t]
    for p, s in ((r'Box<(.*)>', None), (r'Option<(.*)>', 'option_fits'), (r'Vec<(.*)>', 'list_fits')):
        m = re.fullmatch(p, t)
        if m:
            x = fit(m.group(1))
            return x if s is None else f'({s} {x})'
    m = re.fullmatch(r'\[(.*); 3\]', t)
    if m: return f'(array3_fits {fit(m.group(1))})'
    return low(t) + '_fits'

def cite(f, a, b):
    s = SRC[f]
    return f'{f}:{s.count(chr(10), 0, a) + 1}-{s.count(chr(10), 0, b) + 1}'

def split(s):
    out, depth, cur = [], 0, ''
    for ch in s:
        if ch in '<[(': depth += 1
        if ch in '>])': depth -= 1
        if ch == ',' and depth == 0: out.append(cur.strip()); cur = ''
        else: cur += ch
    return out + [cur.strip()]

STRUCT, ENUM = {}, {}
for f, src in SRC.items():
    for m in re.finditer(r'#\[derive\(([^)]*)\)\]\npub (struct|enum) (\w+) \{\n(.*?)\n\}', src, re.S):
        if 'Serialize' not in m.group(1): continue
        body = re.sub(r'//[^\n]*', '', m.group(4))
        c = cite(f, m.start(2), m.end())
        if m.group(2) == 'struct':
            STRUCT[m.group(3)] = ([(x.group(2), x.group(3), x.group(1)) for x in re.finditer(
                r'((?:#\[serde\([^\]]*\)\]\s*)?)pub (\w+): ([^\n]+),', body, re.S)], c)
        else:
            ENUM[m.group(3)] = ([(x.group(2), split(x.group(3)) if x.group(3) else [], 'display_it' in x.group(1))
                for x in re.finditer(r'((?:#\[serde\([^\]]*\)\]\s*)?)(\w+)(?:\(([^\n]*)\))?,\n?', body, re.S)], c)

NET = ['Vector3f', 'Vector3i', 'Quaternion', 'Rotation', 'Trajectory', 'NewActor',
       'ActiveActor', 'CamSettings', 'ClubColors', 'AppliedDamage', 'DamageState',
       'Demolish', 'DemolishExtended', 'DemolishFx', 'Explosion', 'ExtendedExplosion',
       'Loadout', 'TeamLoadout', 'StatEvent', 'MusicStinger', 'Pickup', 'PickupNew',
       'Welded', 'TeamPaint', 'RigidBody', 'PsyNetId', 'SwitchId', 'Ps4Id', 'RemoteId',
       'UniqueId', 'Reservation', 'PrivateMatchSettings', 'ProductValue', 'Product',
       'LoadoutsOnline', 'RepStatTitle', 'PickupInfo', 'Impulse', 'ReplicatedBoost',
       'LogoData', 'Attribute', 'UpdatedAttribute', 'Frame']
FILE = ['NetworkFrames', 'TickMark', 'KeyFrame', 'DebugInfo', 'ClassIndex', 'CacheProp',
        'ClassNetCache', 'Replay']
assert set(NET + FILE) == set(STRUCT) | set(ENUM), set(NET + FILE) ^ (set(STRUCT) | set(ENUM))

spec, proof = [], []
for n in NET + FILE:
    l = low(n)
    if n in STRUCT:
        fs, c = STRUCT[n]
        def fshape(t, a):
            return '.props' if 'pair_vec' in a else shape(t, 'display_it' in a)
        spec.append(f'/-- `{n}`, `{c}`. -/\ndef {l}Shape : Shape := .struct [' + ',\n  '.join(
            f'("{k}", {fshape(t, a)})' for k, t, a in fs) + ']\n')
        if n in ('PsyNetId', 'SwitchId', 'Ps4Id'): continue
        ser = f'c{n}.ser' if n in NET else f'ser{n}'
        hs = [f'h{i}' for i in range(len(fs))]
        def ffit(t, a):
            return 'props_fits' if 'pair_vec' in a else fit(t, 'display_it' in a)
        pr = [f'theorem {l}_fits : Fits {ser} {l}Shape := by', '  intro j', '  constructor', '  · intro h']
        pr.append('    cases h with | struct h =>')
        for i, (k, t, a) in enumerate(fs):
            pr.append(f'    cases h with | cons h{i} h =>')
        pr.append('    cases h')
        for i, (k, t, a) in enumerate(fs):
            pr.append(f'    obtain ⟨v{i}, rfl⟩ := ({ffit(t, a)} _).1 h{i}')
        lifted = [i for i, (k, t, a) in enumerate(fs) if t.startswith('Option<') and n in FILE]
        vals = ', '.join(f'v{i}' for i in range(len(fs)))
        pr.append(f'    refine ⟨⟨{vals}⟩, ?_⟩\n    ' + ''.join(f'cases v{i} <;> ' for i in lifted) + 'rfl' if lifted
            else f'    exact ⟨⟨{vals}⟩, rfl⟩')
        pr.append('  · rintro ⟨v, rfl⟩')
        pr.append('    refine .struct ' + ''.join('(.cons ?_ ' for _ in fs) + '.nil' + ')' * len(fs))
        for k, t, a in fs:
            if t.startswith('Option<') and n in FILE:
                pr.append(f'    · have h := ({ffit(t, a)} _).2 ⟨v.{camel(k)}, rfl⟩')
                pr.append(f'      revert h; cases v.{camel(k)} <;> exact id')
                continue
            pr.append(f'    · exact ({ffit(t, a)} _).2 ⟨v.{camel(k)}, rfl⟩')
        proof.append('\n'.join(pr) + '\n')
    else:
        vs, c = ENUM[n]
        def vshape(args, disp):
            if not args: return 'none'
            if len(args) == 1: return f'some {shape(args[0], disp)}'
            return 'some (.tuple [' + ', '.join(shape(a) for a in args) + '])'
        spec.append(f'/-- `{n}`, `{c}`. -/\ndef {l}Shape : Shape := .enum [' + ',\n  '.join(
            f'("{k}", {vshape(args, d)})' for k, args, d in vs) + ']\n')
        units = [i for i, v in enumerate(vs) if not v[1]]
        def arm(k, args, d, ind):
            r = []
            if k in ('PlayStation', 'PsyNet', 'Switch') and n == 'RemoteId':
                sfs, _ = STRUCT[args[0]]
                r.append('cases h with | struct h =>')
                for i, (fk, t, a) in enumerate(sfs): r.append(f'cases h with | cons h{i} h =>')
                r.append('cases h')
                for i, (fk, t, a) in enumerate(sfs):
                    r.append(f"obtain ⟨v{i}, rfl⟩ := ({fit(t, 'display_it' in a)} _).1 h{i}")
                r.append(f'exact ⟨.{ctor(k)} ' + ' '.join(f'v{i}' for i in range(len(sfs))) + ', rfl⟩')
            elif len(args) == 1:
                r.append(f'obtain ⟨v, rfl⟩ := ({fit(args[0], d)} _).1 h')
                r.append(f'exact ⟨.{ctor(k)} v, rfl⟩')
            else:
                r.append('cases h with | tuple h =>')
                for i in range(len(args)): r.append(f'cases h with | cons h{i} h =>')
                r.append('cases h')
                for i, t in enumerate(args): r.append(f'obtain ⟨v{i}, rfl⟩ := ({fit(t)} _).1 h{i}')
                r.append(f'exact ⟨.{ctor(k)} ' + ' '.join(f'v{i}' for i in range(len(args))) + ', rfl⟩')
            return [ind + x for x in r]
        def back(k, args, d, i):
            mem = '(.tail _ ' * i + '(.head _)' + ')' * i
            if not args: return [f'    · exact .unitVariant {mem}']
            r = [f'    · refine .variant {mem} ?_']
            if k in ('PlayStation', 'PsyNet', 'Switch') and n == 'RemoteId':
                sfs, _ = STRUCT[args[0]]
                r.append('      refine .struct ' + ''.join('(.cons ?_ ' for _ in sfs) + '.nil' + ')' * len(sfs))
                for fk, t, a in sfs: r.append(f"      · exact ({fit(t, 'display_it' in a)} _).2 ⟨_, rfl⟩")
            elif len(args) == 1:
                r.append(f'      exact ({fit(args[0], d)} _).2 ⟨_, rfl⟩')
            else:
                r.append('      refine .tuple ' + ''.join('(.cons ?_ ' for _ in args) + '.nil' + ')' * len(args))
                for t in args: r.append(f'      · exact ({fit(t)} _).2 ⟨_, rfl⟩')
            return r
        pr = [f'theorem {l}_fits : Fits c{n}.ser {l}Shape := by', '  intro j', '  constructor', '  · intro h',
              '    cases h with']
        pr.append('    | unitVariant hm =>')
        pr.append('      simp only [List.mem_cons, Prod.mk.injEq, List.not_mem_nil, or_false, reduceCtorEq, and_false, and_true, false_or] at hm')
        if len(units) > 0:
            pr.append('      rcases hm with ' + ' | '.join('rfl' for _ in units))
            for i in units: pr.append(f'      · exact ⟨.{ctor(vs[i][0])}, rfl⟩')
        pr.append('    | variant hm h =>')
        pr.append('      simp only [List.mem_cons, Prod.mk.injEq, List.not_mem_nil, or_false, reduceCtorEq, and_false, false_or, Option.some.injEq] at hm')
        full = [v for v in vs if v[1]]
        pr.append('      rcases hm with ' + ' | '.join('⟨rfl, rfl⟩' for _ in full))
        for k, args, d in full:
            a = arm(k, args, d, '        ')
            a[0] = '      · ' + a[0].strip()
            pr += a
        pr.append('  · rintro ⟨v, rfl⟩')
        pr.append('    cases v')
        for i, (k, args, d) in enumerate(vs): pr += back(k, args, d, i)
        proof.append('\n'.join(pr) + '\n')

# What is found under each name.
def val(t, x, disp=False):
    t = t.strip()
    if disp: return f'.str (displayInt {x}.toInt)' if t == 'i64' else f'.str (Nat.toDigits 10 {x}.toNat)'
    if t == 'bool': return f'.bool {x}'
    if t in ('u8', 'u16', 'u32'): return f'.int {x}.toNat'
    if t in ('i8', 'i32', 'ActorId', 'ObjectId', 'StreamId'): return f'.int {x}.toInt'
    if t == 'f32': return f'.f32 {x}'
    if t == 'String': return f'.str {x}'
    m = re.fullmatch(r'Box<(.*)>', t)
    if m: return val(m.group(1), x)
    m = re.fullmatch(r'Option<(.*)>', t)
    if m: return f'{x}.elim .null fun y => {val(m.group(1), "y")}'
    m = re.fullmatch(r'Vec<(.*)>', t)
    if m:
        e = x + 'e' if set(x) == {'e'} else 'e'
        return f'.seq ({x}.map fun {e} => {val(m.group(1), e)})'
    if t == '[ActiveActor; 3]':
        return f'.seq [cActiveActor.ser {x}.1, cActiveActor.ser {x}.2.1, cActiveActor.ser {x}.2.2]'
    return f'c{t}.ser {x}' if t in NET else f'ser{t} {x}'

props = []
for n in NET + FILE:
    l = low(n)
    if n in STRUCT:
        if n in ('PsyNetId', 'SwitchId', 'Ps4Id'): continue
        fs, c = STRUCT[n]
        ser = f'c{n}.ser v' if n in NET else f'ser{n} v'
        def fval(k, t, a):
            if 'pair_vec' in a: return f'.map (stringKeys (serProps v.{camel(k)}))'
            return val(t, f'v.{camel(k)}', 'display_it' in a)
        props.append(f'/-- C68. The fields of a `{n}`. -/\ntheorem {l}_fields (v : {n}) : Entries ({ser}) [' + ',\n    '.join(
            f'("{k}", {fval(k, t, a)})' for k, t, a in fs) + '] := by\n  ' + (
            'rfl' if 'Option<' not in str([t for _, t, _ in fs]) else
            'obtain ⟨' + ', '.join(f'a{i}' for i in range(len(fs))) + '⟩ := v\n  ' +
            ' <;> '.join(f'cases a{i}' for i, (k, t, a) in enumerate(fs) if t.startswith('Option<')) + ' <;> rfl') + '\n')
    else:
        vs, c = ENUM[n]
        rows = []
        for k, args, d in vs:
            if not args: rows.append(f'c{n}.ser .{ctor(k)} = .unitVariant "{k}"'); continue
            if n == 'RemoteId' and args[0] in STRUCT:
                sfs, _ = STRUCT[args[0]]
                names = [camel(f) for f, _, _ in sfs]
                rows.append(f'(∀ {" ".join(names)}, c{n}.ser (.{ctor(k)} {" ".join(names)}) = .variant "{k}" (.map [' + ', '.join(
                    f'("{f}", {val(t, camel(f), "display_it" in a)})' for f, t, a in sfs) + ']))')
                continue
            names = [f'x{i}' for i in range(len(args))]
            e = val(args[0], 'x0', d) if len(args) == 1 else '.seq [' + ', '.join(val(t, x) for t, x in zip(args, names)) + ']'
            rows.append(f'(∀ {" ".join(names)}, c{n}.ser (.{ctor(k)} {" ".join(names)}) = .variant "{k}" ({e}))')
        for i in range(0, len(rows), 11):
            part = rows[i:i + 11]
            nm = f'{l}_variants' + (str(i // 11 + 1) if len(rows) > 11 else '')
            pf = ', '.join('by rintro (_ | _) <;> rfl' if '.elim' in r else ('fun ' + '_ ' * (len(r.split(',')[0].split()) - 1) + '=> rfl' if r[0] == '(' else 'rfl') for r in part)
            props.append(f'/-- C68. What is written for each variant of `{n}`. -/\ntheorem {nm} :\n    ' + ' ∧\n    '.join(part) + f' :=\n  ⟨{pf}⟩\n')

H1 = open(HERE + 'schema_head.txt').read()
H2 = open(HERE + 'schema_proof_head.txt').read()
T2 = open(HERE + 'schema_proof_tail.txt').read()
open('/verif/lean/Verif/Spec/Schema.lean', 'w').write(H1 + '\n'.join(spec) + '\nend Boxcars.Spec\n')
open('/verif/lean/Verif/Proofs/Schema.lean', 'w').write(H2 + '\n'.join(proof) + T2)
H3 = open(HERE + 'schema_props_head.txt').read()
T3 = open(HERE + 'schema_props_tail.txt').read()
open('/verif/lean/Verif/Props/Schema.lean', 'w').write(H3 + '\n'.join(props) + T3)
