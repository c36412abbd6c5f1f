#!/usr/bin/env python3
"""Transcribes signal abstractions of hvcc/interpreters/pd2hv/libs/pd/*.pd into Lean (Verif/Sig/*.lean).

    python3 tools/pdsig.py NAME NPARAMS [INLETTYPES]   -> Lean text on stdout

The result is the graph of `Verif.Reduce` that pd2hv makes of the patch, with nested library objects read from their own .pd files and
the inlets and outlets of subpatches removed (what is connected to them is connected directly).  Objects that only deal with messages
are there as `other` objects.  INLETTYPES: one letter for each inlet, f (signal) or c (messages); default: by the name of the inlet."""
import sys, os, re
LIB = os.environ.get('PDLIB', '/repo/hvcc/interpreters/pd2hv/libs/pd')
SIGBIN = {'+~': '+', '-~': '-', '*~': '*', '/~': '/', 'max~': 'max', 'min~': 'min', 'pow~': 'pow'}
IRUN = {'__cos~f': 'cos', '__abs~f': 'abs', '__floor~f': 'floor', '__exp~f': 'exp', '__sqrt~f': 'sqrt', '__log2~f': 'log2'}
IRBIN = {'__gt~f': '>', '__and~f': '&', '__mul~f': '*', '__add~f': '+', '__sub~f': '-', '__lt~f': '<', '__andnot~f': '&!', '__or~f': '|'}
OTHERSIG = {'__cast~fi', '__add~i', '__var_k~i', '__tabread~if', 'phasor', '__rpole~f', '__del1~f', '__cpole~f', 'biquad', '__rsqrt~f', '__biquad~f'}

def read(name):
    txt = open(os.path.join(LIB, name + '.pd')).read().replace('\n', ' ')
    out = []
    for li in re.split(r'(?<!\\);', txt):
        li = li.strip()
        if li: out.append(re.sub(r', f \d+\s*$', '', li).split(' '))
    return out

class Gen:
    def __init__(self): self.nodes = []; self.conns = []
    def new(self, kind, arg, com): self.nodes.append((kind, arg, com)); return len(self.nodes) - 1
    def q(self, a):
        if isinstance(a, tuple): return a[1]
        from decimal import Decimal
        d = Decimal(a)
        if d == d.to_integral_value(): return str(int(d)) if d >= 0 else '(%d)' % int(d)
        return format(d, 'f') if d >= 0 else '(%s)' % format(d, 'f')
    def nums(self, a):
        l = []
        for w in a:
            try: l.append(self.q(w))
            except Exception: pass
        return l
    def sub(self, w, args):
        m = re.fullmatch(r'\\?\$(\d+)', w)
        if m and m.group(1) != '0':
            i = int(m.group(1)) - 1
            if i < len(args) and args[i] is not None: return args[i]
        return w
    def hvargs(self, lines, args):
        res = list(args); depth = 0
        for li in lines:
            if li[:2] == ['#N', 'canvas']: depth += 1
            if li[:2] == ['#X', 'restore']: depth -= 1
            if '@hv_arg' in li and depth == 1:
                k = li.index('@hv_arg'); i = int(li[k + 1].replace('\\', '').replace('$', '')) - 1
                while len(res) <= i: res.append(None)
                if res[i] is None: res[i] = li[k + 4].strip('"')
        return res
    def file(self, name, args):
        lines = read(name)
        return self.canvas(lines[1:], self.hvargs(lines, args), name)
    def canvas(self, lines, args, fn):
        """returns (inlets, outlets): lists of wire nodes"""
        objs = []; ins = []; outs = []; i = 0; cs = []
        while i < len(lines):
            li = lines[i]
            if li[:2] == ['#N', 'canvas']:
                d = 0; j = i
                while True:
                    if lines[j][:2] == ['#N', 'canvas']: d += 1
                    if lines[j][:2] == ['#X', 'restore']:
                        d -= 1
                        if d == 0: break
                    j += 1
                r = lines[j]
                c = '%s, object %d: %s' % (fn, len(objs), ' '.join(r[4:]))
                if len(r) > 5 and r[5] == '@hv_obj': objs.append(self.prim(r[6], [self.sub(w, args) for w in r[7:]], c))
                else: objs.append(('sub',) + self.canvas(lines[i + 1:j], args, fn + ', [%s]' % ' '.join(r[4:])))
                i = j + 1; continue
            if li[:2] == ['#X', 'connect']: cs.append(tuple(int(w) for w in li[2:6])); i += 1; continue
            if li[:2] in (['#X', 'coords'], ['#X', 'declare']): i += 1; continue
            if li[:2] == ['#X', 'text']: objs.append(None); i += 1; continue
            c = '%s, object %d: %s' % (fn, len(objs), ' '.join(li[4:]))
            if li[:2] == ['#X', 'msg']: objs.append(('prim', self.new('ctl', None, c)))
            elif li[:2] == ['#X', 'obj']:
                ty = li[4]; a = [self.sub(w, args) for w in li[5:]]
                if ty in ('inlet', 'inlet~'):
                    n = self.new('wire~' if ty == 'inlet~' else 'wire', None, c); ins.append((float(li[2]), n)); objs.append(('prim', n))
                elif ty in ('outlet', 'outlet~'):
                    n = self.new('wire', None, c); outs.append((float(li[2]), n)); objs.append(('prim', n))
                else: objs.append(self.prim(ty, a, c))
            else: raise Exception(li)
            i += 1
        ins.sort(key=lambda p: p[0]); outs.sort(key=lambda p: p[0])
        for (a, o, b, k) in cs:
            A = (objs[a][1], o) if objs[a][0] == 'prim' else (objs[a][2][o], 0)
            B = (objs[b][1], k) if objs[b][0] == 'prim' else (objs[b][1][k], 0)
            self.conns.append((A, B))
        return [n for _, n in ins], [n for _, n in outs]
    def prim(self, ty, a, c):
        if ty in SIGBIN: return ('prim', self.new('binop', (SIGBIN[ty], self.q(a[0]) if a else '0'), c))
        if ty in IRUN: return ('prim', self.new('irUn', ty, c))
        if ty in IRBIN: return ('prim', self.new('irBin', ty, c))
        if ty == 'var': return ('prim', self.new('var', self.q(a[0]) if a else '0', c))
        if ty in ('__var_k~f', '__var_k~i'): return ('prim', self.new('varK', self.q(a[0]), c))
        if ty in OTHERSIG: return ('prim', self.new('sig', (ty, self.nums(a)), c))
        if os.path.isfile(os.path.join(LIB, ty + '.pd')) and (ty.endswith('~')) and ty not in ('samplerate~', 'snapshot~'):
            i, o = self.file(ty, a); return ('sub', i, o)
        return ('prim', self.new('ctl', ty, c))

def main():
    name = sys.argv[1]; npar = int(sys.argv[2]); ity = sys.argv[3] if len(sys.argv) > 3 else None
    g = Gen()
    par = [('p', 'a%d' % (k + 1)) for k in range(npar)]
    ins, outs = g.file(name, par)
    wires = {k for k, n in enumerate(g.nodes) if n[0] in ('wire', 'wire~')} - set(ins) - set(outs)
    # remove wires
    cs = list(g.conns)
    ch = True
    while ch:
        ch = False
        for k, (A, B) in enumerate(cs):
            if B[0] in wires:
                nxt = [(A, D) for (S, D) in cs if S == B]
                cs[k:k + 1] = nxt; ch = True; break
    cs = [(A, B) for (A, B) in cs if A[0] not in wires]
    keep = [k for k in range(len(g.nodes)) if k not in wires]
    num = {k: i for i, k in enumerate(keep)}
    issig = {}
    for k in keep:
        kd = g.nodes[k][0]
        if k in ins: issig[k] = (ity[ins.index(k)] == 'f') if ity else kd == 'wire~'
        else: issig[k] = kd in ('binop', 'irUn', 'irBin', 'var', 'varK', 'sig')
    conns = [(num[A[0]], A[1], num[B[0]], B[1], issig[A[0]]) for A, B in cs]
    mod = {'~': 'T'}.get(name[-1], '') 
    M = ''.join(w.capitalize() for w in name.rstrip('~').split('_'))
    P = ''.join(' a%d' % (k + 1) for k in range(npar)); PD = ' (%s : ℝ)' % P.strip() if npar else ''
    PI = ' {%s : ℝ}' % P.strip() if npar else ''
    PP = '(patch%s)' % P if npar else 'patch'
    o = ['import Verif.Sig', '/-! Generated by `tools/pdsig.py %s` from hvcc/interpreters/pd2hv/libs/pd/%s.pd (and the library objects in it). -/' % (' '.join(sys.argv[1:]), name),
         'namespace Verif.Sig.%s' % M, 'open Verif.Reduce', '']
    o.append('/-- the objects -/')
    o.append('noncomputable def kind%s : ℕ → Kind ℝ' % PD)
    for i, k in enumerate(keep):
        kd, arg, com = g.nodes[k]
        if kd == 'binop': t = '.binop "%s" %s' % arg
        elif kd == 'irUn': t = '.irUn "%s"' % arg
        elif kd == 'irBin': t = '.irBin "%s"' % arg
        elif kd == 'var': t = '.var %s' % arg
        elif kd == 'varK': t = '.varK %s' % arg
        elif kd == 'sig': t = '.other "%s"' % arg[0]
        else: t = '.other "%s"' % ('inlet' if k in ins else 'outlet' if k in outs else 'message')
        o.append('  | %d => %s  -- %s' % (i, t, com))
    o.append('  | _ => .other ""'); o.append('')
    o.append('/-- the signal objects that are not operators, with their names and numeric arguments -/')
    o.append('noncomputable def special%s : List (ℕ × String × List ℝ) := [%s]' % (PD, ', '.join('(%d, "%s", [%s])' % (i, g.nodes[k][1][0], ', '.join(g.nodes[k][1][1])) for i, k in enumerate(keep) if g.nodes[k][0] == 'sig')))
    o.append('')
    o.append('/-- the connections -/')
    o.append('def conns : List Conn := [%s]' % ', '.join('⟨%d, %d, %d, %d, %s⟩' % (a, b, c, d, '.f' if s else '.c') for a, b, c, d, s in conns))
    o.append('')
    o.append('/-- %s.pd -/' % name)
    o.append('noncomputable def patch%s : Graph ℝ := ofConns (List.range %d) (kind%s) conns' % (PD, len(keep), P)); o.append('')
    for k, n in enumerate(ins): o.append('/-- inlet %d -/\nabbrev in%d : ℕ := %d' % (k, k, num[n]))
    for k, n in enumerate(outs): o.append('/-- outlet %d -/\nabbrev out%d : ℕ := %d' % (k, k, num[n]))
    o.append('')
    # rank
    rk = {}
    def rank(i, seen=()):
        if i in rk: return rk[i]
        if i in seen: raise Exception('loop')
        r = 1 + max([0] + [rank(a, seen + (i,)) for a, b, c, d, s in conns if s and c == i]); rk[i] = r; return r
    ranks = [rank(i) for i in range(len(keep))]
    o.append('/-- an order of evaluation -/')
    o.append('def rank : List ℕ := %s' % ranks); o.append('')
    o.append('theorem ranked : ∀ c ∈ conns, c.ty = .f → rank.getD c.src 0 < rank.getD c.dst 0 := by decide +kernel'); o.append('')
    o.append('theorem plain%s (p : ℕ) : (∀ m, (kind%s p) ≠ .receive m) ∧ ∀ m, kind%s p ≠ .varRead m := by unfold kind; split <;> simp' % (PI if not npar else PD, P, P)); o.append('')
    o.append('/-- the patch has signals, whatever the other objects do and whatever messages come -/')
    o.append('theorem signals%s {μ : Type} (W : World ℝ μ) (log : ℕ → List (Sent μ)) : ∃ v, Solves W %s log v :=' % (PD, PP))
    o.append('  exists_signals _ _ _ (fun p => rank.getD p 0) ranked (plain%s) (by decide +kernel) W log' % P); o.append('')
    o.append('section\nvariable {μ : Type} {W : World ℝ μ} {log : ℕ → List (Sent μ)} {v : ℕ → ℕ → ℕ → ℝ}%s' % PI); o.append('')
    def insig(i, k):
        l = [(a, b) for a, b, c, d, s in conns if c == i and d == k and s]
        if not l: return None
        return ' + '.join('v %d %d t' % x for x in l)
    def inmsg(i, k): return [(a, b) for a, b, c, d, s in conns if c == i and d == k and not s]
    def opd(i, k, dflt):
        s = insig(i, k)
        if s: return s if '+' not in s else '(%s)' % s
        m = inmsg(i, k)
        if not m: return dflt
        return '(held W %s (%s))' % (dflt, 'received (log t) [%s]' % ', '.join('⟨%d, %d, %d, %d, .c⟩' % (a, b, i, k) for a, b in m))
    for i, k in enumerate(keep):
        kd, arg, com = g.nodes[k]
        if kd == 'binop':
            A, B = opd(i, 0, '0'), opd(i, 1, arg[1])
            if not insig(i, 0) and not insig(i, 1): continue
            rhs = '%s %s %s' % (A, arg[0], B) if arg[0] in '+-*/' else 'W.bin "%s" %s %s' % (arg[0], A if A[0]=='(' or ' ' not in A else '(%s)' % A, B if B[0]=='(' or ' ' not in B else '(%s)' % B)
        elif kd == 'irUn': rhs = 'W.un "%s" (%s)' % (IRUN[arg], insig(i, 0) or '0')
        elif kd == 'irBin':
            op = IRBIN[arg]; A, B = insig(i, 0) or '0', insig(i, 1) or '0'
            rhs = '(%s) %s (%s)' % (A, op, B) if op in '+-*/' else 'W.bin "%s" (%s) (%s)' % (op, A, B)
        elif kd == 'varK': rhs = arg
        elif kd == 'var': rhs = opd(i, 0, arg)
        elif k in outs:
            s = insig(i, 0)
            if not s: continue
            o.append('/-- %s -/' % com)
            o.append('theorem o%d (t : ℕ) : inSum v (%s.ins %d 0) t = %s := by\n  simp [patch, ofConns, conns, Conn.into, inSum]' % (outs.index(k), PP, i, s))
            o.append(''); continue
        else: continue
        o.append('/-- %s -/' % com)
        o.append('theorem n%d (h : Solves W %s log v) (t : ℕ) : v %d 0 t = %s := by' % (i, PP, i, rhs))
        o.append('  have := h %d (by simp [patch, ofConns])' % i)
        o.append('  simp [Obeys, patch, ofConns, kind, conns, Conn.into, inSum, operand, hasSignal, World.op, World.fn, irOp, irFn, held_nil] at this')
        o.append('  simpa using this t')
        o.append('')
    o.append('end'); o.append(''); o.append('end Verif.Sig.%s' % M)
    print('\n'.join(o))
main()
