#!/usr/bin/env python3
"""Writes Verif/Climbs1.lean ... Climbs3.lean (for each class named in tools/climbs.txt: its evolve never loses ground, proved by the tactic
`climb`) and Verif/Climber.lean (the list of these classes).  Run in /verif/lean; the statements are read off the `framed` theorems."""
import re, glob, os, sys
sys.path.insert(0, os.path.dirname(__file__))
HERE = os.path.dirname(os.path.abspath(__file__))
names = open(os.path.join(HERE, 'climbs.txt')).read().split()
manual = {n[1:] for n in names if n.startswith('*')}
names = [n.lstrip('*') for n in names]

items = {}
for f in sorted(glob.glob('Verif/Alg/*.lean') + glob.glob('Verif/*.lean')):
    if os.path.basename(f).startswith('Climb'):
        continue
    s = open(f).read()
    ns, op = [], ''
    for m in re.finditer(r'^namespace (\S+)(?:\n(open [^\n]*))?|^end (\S+)|^theorem framed (.*?):=', s, re.S | re.M):
        if m.group(1):
            ns.append(m.group(1)); op = m.group(2) or ''
        elif m.group(3):
            if ns and ns[-1] == m.group(3):
                ns.pop()
        else:
            t = ' '.join(m.group(4).split())
            mm = re.match(r'(.*) : Framed \S+ (\(.*\))$', t)
            if mm:
                items['.'.join(ns[1:])] = (f[:-5].replace('/', '.'), mm.group(1), mm.group(2), op)

auto = [n for n in names if n not in manual]
k = (len(auto) + 2) // 3
parts = [auto[:k], auto[k:2 * k], auto[2 * k:]]
for i, part in enumerate(parts, 1):
    l = [f'import {m}' for m in sorted({items[n][0] for n in part})] + ['import Verif.Climb', '',
         '/-! Generated by tools/climbs.py: populations that never lose ground, class by class. -/', '',
         'set_option linter.unusedVariables false', '', 'namespace Mealpy', 'open Spec', '',
         'variable {d : Nat} {K : Type} [Num K] {c : Cfg d K}', '']
    for n in part:
        _, a, p, o = items[n]
        l += [f'namespace {n}'] + ([o] if o else []) + [f'theorem climbs {a} (q : List _) : Up q {p} := by climb', f'end {n}', '']
    l.append('end Mealpy')
    open(f'Verif/Climbs{i}.lean', 'w').write('\n'.join(l) + '\n')

def binders(a):
    out, depth, cur = [], 0, ''
    for ch in a:
        if ch == '(':
            depth += 1
            if depth == 1: cur = ''; continue
        if ch == ')':
            depth -= 1
            if depth == 0: out.append(cur.split(' : ')[0].split()); continue
        cur += ch
    return [x for b in out for x in b]

l = ['import Verif.Climbs1', 'import Verif.Climbs2', 'import Verif.Climbs3', 'import Verif.ClimbsMore', '',
     '/-! Generated by tools/climbs.py: the classes whose population never loses ground. -/', '', 'namespace Mealpy', 'open Spec', '',
     'variable {d : Nat} {K : Type} [Num K] {X Y : Type}', '',
     '/-- every `evolve` of these classes selects greedily, whatever the settings -/',
     'inductive Climber (c : Cfg d K) : {X Y : Type} → Algo c X Y → Prop']
proof = []
for n in names:
    bs = [b for b in binders(items[n][1]) if b not in ('hE', 'ep')]
    ctor = n[0].lower() + n[1:]
    pb = (' ' + ' '.join(f'({b})' for b in bs)) if bs else ''
    al = f'({n}.algo {" ".join(bs)})' if bs else f'{n}.algo'
    l.append(f'  | {ctor}{pb} : Climber c {al}')
    args = ' '.join(b if b in bs else b for b in binders(items[n][1]))
    proof.append(f'  | {ctor} {" ".join(bs)} => exact {n}.climbs {args} q'.replace('  =>', ' =>'))
l += ['', 'variable {c : Cfg d K}', '',
      'theorem Climber.up {A : Algo c X Y} (hA : Climber c A) (hE : c.E.Lawful) (ep : Nat) (q : List (Agent d K X)) : Up q (A.evolve ep) := by',
      '  cases hA with'] + proof + ['', 'end Mealpy']
open('Verif/Climber.lean', 'w').write('\n'.join(l) + '\n')
print(len(names), 'classes')
