#!/usr/bin/env python3
"""Generate lean/Verif/Model/Data.lean from /repo/src/data.rs."""
import re
src = open('/repo/src/data.rs').read()
lines = src.split('\n')
def start(name):
    return next(i for i, l in enumerate(lines, 1) if 'static ' + name in l)
def end(i):
    return next(k for k in range(i, len(lines) + 1) if lines[k - 1] in ('};', '];'))
def lc(s):
    special = {'QWordString': 'qWordString'}
    return special.get(s, s[0].lower() + s[1:])
out = ['import Verif.Model.Types', '/-!', '# Generated from `src/data.rs` by `tools/gen_data.py`. Do not edit.', '-/', 'namespace Boxcars', '']
def section(name):
    a = start(name); b = end(a)
    return a, b, '\n'.join(lines[a - 1:b])
a, b, t = section('SPAWN_STATS')
ents = re.findall(r'\(\s*"([^"]*)",\s*SpawnTrajectory::(\w+),?\s*\)', t)
assert len(ents) == t.count('SpawnTrajectory::'), (len(ents), t.count('SpawnTrajectory::'))
out += [f'/-- `SPAWN_STATS`, `src/data.rs:{a}-{b}`. -/', 'def spawnStats : List (String × SpawnTrajectory) := [']
out += [',\n'.join(f'  ("{k}", .{lc(v)})' for k, v in ents) + ']', '']
a, b, t = section('ATTRIBUTES')
ents = re.findall(r'"([^"]*)"\s*=>\s*AttributeTag::(\w+)', t)
assert len(ents) == t.count('=>')
out += [f'/-- `ATTRIBUTES`, `src/data.rs:{a}-{b}` (a `phf` map: keys are distinct). -/', 'def attributesTable : List (String × AttributeTag) := [']
out += [',\n'.join(f'  ("{k}", .{lc(v)})' for k, v in ents) + ']', '']
a, b, t = section('PARENT_CLASSES')
ents = re.findall(r'"([^"]*)"\s*=>\s*"([^"]*)"', t)
assert len(ents) == t.count('=>')
out += [f'/-- `PARENT_CLASSES`, `src/data.rs:{a}-{b}` (a `phf` map: keys are distinct). -/', 'def parentClasses : List (String × String) := [']
out += [',\n'.join(f'  ("{k}", "{v}")' for k, v in ents) + ']', '']
out += ['''/-- `ATTRIBUTES.get(name)`. -/
def attributeTag (name : Str) : Option AttributeTag := attributesTable.lookup (String.ofList name)

/-- `PARENT_CLASSES.get(name)`. -/
def parentClass (name : Str) : Option Str :=
  (parentClasses.lookup (String.ofList name)).map String.toList

end Boxcars''']
import os
p = os.path.join(os.path.dirname(os.path.abspath(__file__)), '../lean/Verif/Model/Data.lean')
open(p, 'w').write('\n'.join(out) + '\n')
