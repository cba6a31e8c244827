#!/usr/bin/env python3
"""Builds LALR(1) tables for the grammar of /repo/xdr.y, as goyacc does, and writes them to Verif/Lang/XdrTable.lean.

Not trusted: `xdrLr_valid` checks the tables against the grammar (`Lr.valid`).
"""
import os, re
from collections import Counter

root = os.path.dirname(os.path.dirname(os.path.abspath(__file__)))
text = open("/repo/xdr.y").read()

# The rules, without the actions.
out, depth = "", 0
for c in text.split("%%")[1]:
    if c == "{" and not out.endswith("'"):
        depth += 1
    if depth == 0:
        out += c
    if c == "}" and depth > 0:
        depth -= 1
toks = re.findall(r"'.'|[A-Za-z_]\w*|:|\|", out)
R, i = [("$accept", ["spec", "$end"])], 0
while i < len(toks):
    lhs, rhs = toks[i], []
    assert toks[i + 1] == ":"
    i += 2
    while True:
        if i >= len(toks) or (i + 1 < len(toks) and toks[i + 1] == ":"):
            R.append((lhs, rhs))
            break
        if toks[i] == "|":
            R.append((lhs, rhs))
            rhs = []
        else:
            rhs.append(toks[i])
        i += 1
nts = []
for l, _ in R[1:]:
    if l not in nts:
        nts.append(l)
NT = set(nts) | {"$accept"}

# Symbols that may be empty; first tokens.
null, first = set(), {n: set() for n in NT}
while True:
    before = (len(null), sum(map(len, first.values())))
    for l, r in R:
        if all(s in null for s in r):
            null.add(l)
        for s in r:
            first[l] |= first[s] if s in NT else {s}
            if s not in null:
                break
    if before == (len(null), sum(map(len, first.values()))):
        break

def firsts(seq, la):
    o = set()
    for s in seq:
        o |= first[s] if s in NT else {s}
        if s not in null:
            return o
    return o | set(la)

# LR(0) states, then lookaheads.
def closure0(kernel):
    work, seen = list(kernel), set(kernel)
    while work:
        r, d = work.pop()
        rhs = R[r][1]
        if d < len(rhs) and rhs[d] in NT:
            for j, (l, _) in enumerate(R):
                if l == rhs[d] and (j, 0) not in seen:
                    seen.add((j, 0))
                    work.append((j, 0))
    return seen

states = [frozenset([(0, 0)])]
index, goto, i = {states[0]: 0}, {}, 0
while i < len(states):
    c = closure0(states[i])
    syms = []
    for r, d in sorted(c):
        if d < len(R[r][1]) and R[r][1][d] not in syms:
            syms.append(R[r][1][d])
    for s in syms:
        n = frozenset((r, d + 1) for r, d in c if d < len(R[r][1]) and R[r][1][d] == s)
        if n not in index:
            index[n] = len(states)
            states.append(n)
        goto[i, s] = index[n]
    i += 1
LA = [{it: set() for it in s} for s in states]

def closure1(i):
    items = {k: set(v) for k, v in LA[i].items()}
    work = list(items)
    while work:
        r, d = work.pop()
        rhs = R[r][1]
        if d < len(rhs) and rhs[d] in NT:
            f = firsts(rhs[d + 1:], items[r, d])
            for j, (l, _) in enumerate(R):
                if l == rhs[d] and ((j, 0) not in items or not f <= items[j, 0]):
                    items[j, 0] = items.get((j, 0), set()) | f
                    work.append((j, 0))
    return items

changed = True
while changed:
    changed = False
    for i in range(len(states)):
        for (r, d), la in closure1(i).items():
            rhs = R[r][1]
            if d < len(rhs):
                t = LA[goto[i, rhs[d]]]
                if not la <= t[r, d + 1]:
                    t[r, d + 1] |= la
                    changed = True
items = [closure1(i) for i in range(len(states))]

# Tables.  The most common reduction of a state is its default.
T = []
for i in range(len(states)):
    shifts = {s: g for (j, s), g in goto.items() if j == i and s not in NT}
    gotos = {s: g for (j, s), g in goto.items() if j == i and s in NT}
    reds = {}
    for (r, d), la in items[i].items():
        if d == len(R[r][1]):
            for a in la:
                assert a not in reds and a not in shifts, "conflict"
                reds[a] = r
    accepts = shifts.pop("$end", None) is not None
    default = Counter(reds.values()).most_common(1)[0][0] if reds else 0
    T.append((shifts, gotos, {a: r for a, r in reds.items() if r != default}, default, accepts))

# A potential that decreases with every reduction: pot(q) + len(rhs) >= pot(where the reduction leads) + 2.
pot = [0] * len(T)
while True:
    before = list(pot)
    for i, t in enumerate(T):
        for k in set(t[2].values()) | ({t[3]} - {0}):
            l, r = R[k]
            for p in range(len(T)):
                if (k, 0) in items[p] and (r or p == i):
                    pot[i] = max(pot[i], pot[T[p][1][l]] + 2 - len(r))
    if before == pot:
        break
bound = [0] * len(R)
for p in range(len(T)):
    for k, d in items[p]:
        if d == 0 and k > 0:
            bound[k] = max(bound[k], pot[T[p][1][R[k][0]]])

# Numbers of symbols: as goyacc numbers the tokens; the others from 1000 on.
kw = re.findall(r"%token (?:<\w+> )?(\S+)", text)
def code(s):
    if s == "$end":
        return 0
    if s == "$accept":
        return 999
    if s in NT:
        return 1000 + nts.index(s)
    return ord(s[1]) if s[0] == "'" else 57346 + kw.index(s)

def nums(l):
    return "[" + ", ".join(map(str, l)) + "]"
def pairs(d):
    return "[" + ", ".join("(%d, %d)" % x for x in sorted((code(a), b) for a, b in d.items())) + "]"
def table(name, ty, rows):
    return "def %s : %s :=\n  [%s]" % (name, ty, ",\n   ".join(rows))
terms = sorted({s for _, r in R for s in r if s not in NT} - {"$end"}, key=code)
o = ["""/-
LALR(1) tables for the grammar of xdr.y.

Generated by tools/mklalr.py; `Verif.Lang.XdrLr` checks them.  The tables that goyacc generates are not in the repository.
-/
import Verif.Lang.Lr

namespace Verif.Lang"""]
o.append("/-- The symbols and their numbers. -/\n" + table("xdrSyms", "List (String × Nat)", ['("%s", %d)' % (s, code(s)) for s in nts + terms]))
o.append("/-- The rules; rule 0 is goyacc's `$accept: spec $end`. -/\n" + table("xdrRules", "List (Nat × List Nat)",
    ["(%d, %s)" % (code(l), nums(code(s) for s in r if s != "$end")) for l, r in R]))
o.append("/-- The states. -/\n" + table("xdrStates", "List LrState",
    ["⟨%s, %s, %s, %d, %s⟩" % (pairs(t[0]), pairs(t[1]), pairs(t[2]), t[3], "true" if t[4] else "false") for t in T]))
def item(kd, la):
    return "⟨%d, %d, %s⟩" % (*kd, nums(sorted(map(code, la if kd[0] else {"$end"}))))
o.append("/-- Their items. -/\n" + table("xdrItems", "List (List LrItem)",
    ["[" + ", ".join(item(kd, la) for kd, la in sorted(x.items()) if kd != (0, 2)) + "]" for x in items]))
o.append("def xdrPot : List Nat :=\n  " + nums(pot))
o.append("def xdrBound : List Nat :=\n  " + nums(bound))
o.append("def xdrNulls : List Nat := " + nums(sorted(code(s) for s in null | {"$accept"})))
o.append(table("xdrFirsts", "List (Nat × List Nat)", ["(%d, %s)" % (code(n), nums(sorted(map(code, first[n])))) for n in ["$accept"] + nts]))
o.append("def xdrLr : Lr := ⟨xdrRules, xdrStates, xdrItems, xdrPot, xdrBound, xdrNulls, xdrFirsts⟩")
o.append("end Verif.Lang")
open(os.path.join(root, "lean", "Verif", "Lang", "XdrTable.lean"), "w").write("\n\n".join(o) + "\n")
print(len(R) - 1, "rules", len(T), "states")
