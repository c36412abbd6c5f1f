#!/usr/bin/env python3
"""Transcribes abstractions of hvcc/interpreters/pd2hv/libs/pd/*.pd into Lean (Verif/Lib/*.lean).

    python3 tools/pdlib.py NAME [NPARAMS]   -> Lean text on stdout

Nested library objects are read from their own .pd files, recursively, as pd2hv does (PdParser.py:166-480); [t], [route], [sel],
[unpack], [pack], [s], [r], binary operators and message boxes are translated as PdTriggerObject.py, PdRouteObject.py,
PdSelectObject.py, PdUnpackObject.py, PdPackObject.py, PdSendObject.py, PdReceiveObject.py, PdBinopObject.py, PdMessageObject.py do.
Every line of the output cites the file and the object's number in it."""
import sys, os, re
LIB = os.environ.get('PDLIB', '/repo/hvcc/interpreters/pd2hv/libs/pd')
BIN = {'+': 'add', '-': 'sub', '*': 'mul', '/': 'div', 'mod': 'mod', 'max': 'max', 'min': 'min', '==': 'eq', '!=': 'neq',
       '<': 'lt', '<=': 'le', '>': 'gt', '>=': 'ge', '&&': 'and', '||': 'or'}
UN = {'__floor': 'floor', '__ceil': 'ceil', 'floor': 'floor', 'ceil': 'ceil', '__abs': 'abs'}
FN = ['sqrt', 'log', 'log2', 'log10', 'exp', 'sin', 'cos', 'tan', 'atan']

def read(name):
    txt = open(os.path.join(LIB, name + '.pd')).read().replace('\n', ' ')
    out = []
    for li in re.split(r'(?<!\\);', txt):
        li = li.strip()
        if li:
            li = re.sub(r', f \d+\s*$', '', li)
            out.append(li.split(' '))
    return out

class Gen:
    def __init__(self):
        self.nodes = []      # [kind, outs, cls, comment]
        self.names = {'__hv_init': 0}
        self.recvs = {}
        self.tables = {}
        self.tabsize = []
        self.inst = 0
        self.zero = 0
        self.prio = {}
        self.bins = []
        self.sinks = {}      # signal objects (one node each), and the inlets that get messages
        self.probes = []
    def new(self, kind, nout, cls, com):
        self.nodes.append([kind, [[] for _ in range(nout)], cls, com]); return len(self.nodes) - 1
    def name(self, n):
        return self.names.setdefault(n, len(self.names))
    def table(self, n):
        return self.tables.setdefault(n, len(self.tables))
    def q(self, a):
        """a number or a parameter as Lean text"""
        if isinstance(a, tuple): return a[1]
        f = float(a)
        if f == int(f): return str(int(f)) if f >= 0 else '(%d)' % int(f)
        return '(%s)' % repr(f)
    def isnum(self, a):
        if isinstance(a, tuple): return True
        try: float(a); return True
        except ValueError: return False
    def atom(self, a):
        if self.isnum(a): return '(.float %s)' % self.q(a)
        if a == 'bang': return '.bang'
        return '(.sym "%s")' % a
    def sub(self, w, args, zero):
        """$-arguments"""
        m = re.fullmatch(r'\\?\$(\d+)', w)
        if m and m.group(1) != '0':
            i = int(m.group(1)) - 1
            return args[i] if i < len(args) else w
        w = re.sub(r'\\?\$0', str(zero), w)
        return w
    def hvargs(self, lines, args):
        """@hv_arg defaults, PdParser.py:86-105; only those of the outermost canvas are used"""
        res = list(args)
        depth = 0
        for li in lines:
            if li[:2] == ['#N', 'canvas']: depth += 1
            if li[:2] == ['#X', 'restore']: depth -= 1
            if '@hv_arg' in li and depth == 1:
                k = li.index('@hv_arg')
                i = int(li[k + 1].replace('\\', '').replace('$', '')) - 1
                d = li[k + 4]
                while len(res) <= i: res.append(None)
                if res[i] is None: res[i] = d.strip('"')
        return res
    def file(self, name, args, depth):
        lines = read(name)
        self.zero += 1
        z = self.zero
        args = self.hvargs(lines, args)
        g, rest = self.canvas(lines[1:], args, z, depth, name, name)
        return g
    def canvas(self, lines, args, z, depth, com, fn):
        """one canvas; returns the graph node and the remaining lines"""
        g = self.new(None, 0, None, com)
        objs = []; conns = []; ins = []; outs = []; body = []
        i = 0
        hv = None
        while i < len(lines):
            li = lines[i]
            if li[:2] == ['#N', 'canvas']:
                mark = len(self.nodes)
                i0 = i
                # look for @hv_obj
                d = 0; j = i
                while True:
                    if lines[j][:2] == ['#N', 'canvas']: d += 1
                    if lines[j][:2] == ['#X', 'restore']:
                        d -= 1
                        if d == 0: break
                    j += 1
                r = lines[j]
                idx = len(objs)
                c = '%s, object %d: %s' % (fn, idx, ' '.join(r[4:]))
                if len(r) > 5 and r[5] == '@hv_obj':
                    a = [self.sub(w, args, z) for w in r[7:]]
                    if '~' in r[6] or r[6] in ('biquad', 'phasor'): objs.append((self.sink(c), float(r[2]))); i = j + 1; continue
                    objs.append((self.hvobj(r[6], a, c), float(r[2])))
                else:
                    sg, _ = self.canvas(lines[i + 1:j], args, z, depth + 1, c, fn + ', [%s]' % ' '.join(r[4:]))
                    objs.append((sg, float(r[2])))
                i = j + 1
                continue
            if li[:2] == ['#X', 'connect']:
                conns.append(tuple(int(w) for w in li[2:6])); i += 1; continue
            if li[:2] == ['#X', 'coords'] : i += 1; continue
            if li[:2] == ['#X', 'text']:
                objs.append((None, 0)); i += 1; continue
            idx = len(objs)
            c = '%s, object %d: %s' % (fn, idx, ' '.join(li[4:]))
            x = float(li[2])
            if li[:2] == ['#X', 'msg']:
                w = [self.sub(v, [], 0) if False else v for v in li[4:]]
                objs.append((self.new('.obj', 1, '.msg [%s]' % ', '.join(self.elem(v) for v in w), c), x))
            elif li[:2] == ['#X', 'obj']:
                ty = self.sub(li[4], args, z)
                a = [self.sub(w, args, z) for w in li[5:]]
                if isinstance(ty, str) and ty.endswith('~') and ty not in ('inlet~', 'samplerate~'): objs.append((self.sink(c), x))
                elif ty == 'inlet' or ty == 'inlet~':
                    n = self.new('.inlet', 1, '.none', c); ins.append((x, n)); objs.append((n, x))
                elif ty == 'outlet':
                    n = self.new(None, 0, '.none', c); outs.append((x, n)); objs.append((n, x))
                else:
                    objs.append((self.obj(ty, a, depth, c), x))
            else: raise Exception(li)
            i += 1
        ins.sort(key=lambda p: p[0]); outs.sort(key=lambda p: p[0])
        self.nodes[g][0] = '.graph [%s]' % ', '.join(str(n) for _, n in ins)
        self.nodes[g][1] = [[] for _ in outs]
        self.nodes[g][2] = '.none'
        for k, (_, n) in enumerate(outs):
            self.nodes[n][0] = '.outlet %d %d' % (g, k)
        for (a, o, b, n) in conns:
            A, B = objs[a][0], objs[b][0]
            if A in self.sinks or (B in self.sinks and self.nodes[A][0] == '.inlet' and 'inlet~' in self.nodes[A][3]): continue
            if B in self.sinks:
                if (B, n) not in self.probes: self.probes.append((B, n))
                B, n = ('sink', self.probes.index((B, n))), 0
            while len(self.nodes[A][1]) <= o: self.nodes[A][1].append([])
            self.nodes[A][1][o].append((B, n))
        return g, []
    def sink(self, c):
        """a signal object: only the messages it gets are of interest"""
        n = self.new('.obj', 0, '.none', c + ' (makes a signal)')
        self.sinks[n] = True; return n
    def elem(self, v):
        m = re.fullmatch(r'\\?\$(\d+)', v)
        if m: return '.arg %d' % (int(m.group(1)) - 1)
        return '.lit %s' % self.atom(v)
    def hvobj(self, ty, a, c):
        if ty == '__switchcase':
            return self.new('.obj', len(a) + 1, '.switch [%s]' % ', '.join(self.atom(v) for v in a), c)
        if ty == '__cast_b': return self.new('.cast .bang', 1, '.none', c)
        if ty == '__cast_f': return self.new('.cast .float', 1, '.none', c)
        if ty in ('if', '__if'):
            k = self.q(a[0]) if a and self.isnum(a[0]) else '0'
            return self.new('.obj', 2, '.ite %s' % k, c)
        if ty == '__var': return self.new('.obj', 1, '.var %s' % self.atom(a[0]), c)
        if ty == '__delay': return self.new('.obj', 1, '.delay %s' % (self.q(a[0]) if a else '0'), c)
        if ty in ('slice', '__slice'): return self.new('.obj', 2, '.slice %s %s' % (a[0], a[1] if a[1] != '-1' else '0'), c)
        if ty == 'system': return self.new('.obj', 1, '.system', c)
        if ty[:2] == '__' and ty[2:] in FN: return self.new('.obj', 1, '.fn "%s"' % ty[2:], c)
        if ty == '__intdiv': return self.new('.obj', 1, '.bin .intdiv %s' % self.q(a[0]), c)
        if ty in UN: return self.new('.obj', 1, '.un .%s' % UN[ty], c)
        if ty == '__tabread': return self.new('.obj', 1, '.tabread %d' % self.table(a[0]), c)
        if ty == '__tabwrite': return self.new('.obj', 1, '.tabwrite %d' % self.table(a[0]), c)
        if ty == 'print': return self.new('.obj', 0, '.print', c)
        raise Exception('hv object ' + ty)
    def obj(self, ty, a, depth, c):
        if os.path.isfile(os.path.join(LIB, str(ty) + '.pd')):
            n = len(self.nodes)
            g = self.file(ty, a, depth + 1)
            self.nodes[g][3] = c
            return g
        if ty in ('t', 'trigger'):
            m = {'a': 'none', 'b': 'some .bang', 'f': 'some .float', 's': 'some .symbol'}
            return self.new('.seq [%s]' % ', '.join(m[w] for w in a), len(a), '.none', c)
        if ty == 'pow':
            n = self.new('.obj', 1, None, c)
            self.bins.append((n, None, self.q(a[0]) if a else '0')); return n
        if ty in BIN:
            n = self.new('.obj', 1, None, c)
            self.bins.append((n, BIN[ty], self.q(a[0]) if a else '0')); return n
        if ty == 'route': return self.graph1(a, c, '.slice 1 0')
        if ty in ('sel', 'select'): return self.graph1(a, c, None)
        if ty == 'unpack':
            g = self.new(None, len(a), '.none', c)
            i = self.new('.inlet', 1, '.none', c)
            self.nodes[g][0] = '.graph [%d]' % i
            for k in reversed(range(len(a))):
                s = self.new('.obj', 2, '.slice %d 1' % k, c)
                o = self.new('.outlet %d %d' % (g, k), 0, '.none', c)
                self.nodes[i][1][0].append((s, 0)); self.nodes[s][1][0].append((o, 0))
            return g
        if ty == 'pack':
            return self.new('.obj', 1, '.pack [%s]' % ', '.join(self.q(w) if self.isnum(w) else '0' for w in a), c)
        if ty in ('s', 'send'):
            return self.new('.send %d' % self.name(a[0]), 1, '.none', c)
        if ty in ('r', 'receive'):
            self.inst += 1
            n = self.new('.recv', 1, '.none', c)
            pr = depth * 1000 - self.inst
            if len(a) > 1 and not isinstance(a[1], tuple) and re.fullmatch(r'-?\d+', a[1]) and int(a[1]) != 0: pr = int(a[1])
            self.prio[n] = pr
            self.recvs.setdefault(self.name(a[0]), []).append(n)
            return n
        if ty == 'table':
            t = self.table(a[0])
            while len(self.tabsize) <= t: self.tabsize.append('0')
            self.tabsize[t] = self.q(a[1])
            return self.new('.obj', 1, '.none', c)
        if self.isnum(ty): return self.new('.obj', 1, '.var (.float %s)' % self.q(ty), c)
        raise Exception('object ' + ty)
    def graph1(self, a, c, cls):
        """[route] and [select]"""
        g = self.new(None, len(a) + 1, '.none', c)
        i = self.new('.inlet', 1, '.none', c)
        i2 = self.new('.inlet', 1, '.none', c)
        sw = self.new('.obj', len(a) + 1, '.switch [%s]' % ', '.join(self.atom(v) for v in a), c)
        self.nodes[g][0] = '.graph [%d, %d]' % (i, i2)
        self.nodes[i][1][0].append((sw, 0))
        o = self.new('.outlet %d %d' % (g, len(a)), 0, '.none', c)
        self.nodes[sw][1][len(a)].append((o, 0))
        for k in range(len(a)):
            s = self.new('.obj', 2, cls, c) if cls else self.new('.cast .bang', 1, '.none', c)
            o = self.new('.outlet %d %d' % (g, k), 0, '.none', c)
            self.nodes[sw][1][k].append((s, 0)); self.nodes[s][1][0].append((o, 0))
            if cls: self.nodes[s][1][1].append((o, 0))
        return g
    def finish(self):
        used = set(d for n in self.nodes for ds in n[1] for d in ds)
        for (n, op, k) in self.bins:
            if op is None: self.nodes[n][2] = ('.pow %s' if (n, 1) in used else '.powk %s') % k
            else: self.nodes[n][2] = ('.bin .%s %s' if (n, 1) in used else '.bink .%s %s') % (op, k)

def main():
    ports = [w for w in sys.argv if w.startswith(('in:', 'out:'))]
    for w in ports: sys.argv.remove(w)
    name = sys.argv[1]; nps = sys.argv[2] if len(sys.argv) > 2 else '0'
    names = nps.endswith('s')  # the arguments are names
    np = int(nps.rstrip('s'))
    fuel = int(sys.argv[3]) if len(sys.argv) > 3 else 20
    G = Gen()
    ps = ['a%d' % (i + 1) for i in range(np)]
    g = G.file(name, [('p', p) for p in ps], 0)
    nout = len(G.nodes[g][1])
    probes = [G.new('.obj', 0, '.probe %d' % k, 'outlet %d of the abstraction' % k) for k in range(nout)]
    for k, p in enumerate(probes): G.nodes[g][1][k].append((p, 0))
    nin = len(re.findall(r'\d+', G.nodes[g][0]))
    drivers = [G.new('.obj', 1, '.none', 'an object of the surrounding patch, connected to inlet %d' % k) for k in range(nin)]
    for k, p in enumerate(drivers): G.nodes[p][1][0].append((g, k))
    for w in ports:
        if w.startswith('in:'):
            d = G.new('.obj', 1, '.none', 'what sends messages to %s: number %d' % (w[3:], nin))
            if d != (drivers[0] if drivers else d) + nin: raise Exception('drivers')
            drivers.append(d); nin += 1
    for k, w in enumerate([w for w in ports if w.startswith('in:')]):
        x = G.new('.send %d' % G.name(w[3:]), 1, '.none', 'to %s' % w[3:])
        G.nodes[drivers[nin - len([w for w in ports if w.startswith('in:')]) + k]][1][0].append((x, 0))
    for k, w in enumerate([w for w in ports if w.startswith('out:')]):
        r = G.new('.recv', 1, '.none', 'from %s' % w[4:])
        G.inst += 1
        G.prio[r] = -G.inst
        G.recvs.setdefault(G.name(w[4:]), []).append(r)
        x = G.new('.obj', 0, '.probe %d' % (nout + k), 'what comes out of %s: number %d' % (w[4:], nout + k))
        G.nodes[r][1][0].append((x, 0))
    for k, (b, n) in enumerate(G.probes):
        x = G.new('.obj', 0, '.probe %d' % (nout + len([w for w in ports if w.startswith('out:')]) + k), 'messages for %s, inlet %d' % (G.nodes[b][3].replace(' (makes a signal)', ''), n))
        for nd in G.nodes:
            nd[1] = [[(x, 0) if d == (('sink', k), 0) else d for d in ds] for ds in nd[1]]
    G.finish()
    if names:
        for n in G.nodes: n[2] = re.sub(r'\.var \(\.float (a\d+)\)', r'.var (.sym \1)', n[2])
    ns = {'tabread~': 'TabreadS', 'tabwrite~': 'TabwriteS'}.get(name) or name.replace('~', '').capitalize()
    T = 'String' if names else 'ℚ'
    P = ''.join(' (%s : %s)' % (p, T) for p in ps)
    PI = ''.join(' {%s : %s}' % (p, T) for p in ps)
    A = ''.join(' %s' % p for p in ps)
    f = 'libs/pd/%s.pd' % name
    big = len(G.nodes) > 300
    def lemma(x):
        if big:
            if x.endswith(':= rfl'): x = x[:-3] + 'by rw [sys_eq]; rfl'
            else: x = x.replace(':= by rcases', ':= by rw [sys_eq]; rcases')
        print(x)
    print('import Verif.LibTree' if big else 'import Verif.LibSim')
    print('/-!\nThe abstraction `[%s]`: transcription of hvcc/interpreters/pd2hv/libs/pd/%s.pd and of the library files it uses, made by' % (name, name))
    print('tools/pdlib.py.  Object `%d` is the abstraction itself, its outlets are connected to `.probe`s.' % g)
    print('-/\nset_option linter.unusedVariables false\nset_option linter.style.longLine false\nset_option maxRecDepth 100000\nnamespace Verif.Lib.%s\nopen Verif.Control (Dest Kind Cast Patch)\n' % ns)
    def block(head, L):
        print(head + '\n  [' + '\n   '.join(x + (']' if j == len(L) - 1 else ',') + '  -- ' + y for j, (x, y) in enumerate(L)))
    L = []
    for i, (k, o, c, com) in enumerate(G.nodes):
        os_ = '[%s]' % ', '.join('[%s]' % ', '.join('(%d, %d)' % d for d in ds) for ds in o)
        L.append(('⟨%s, %s, %s⟩' % (k, os_, c), '%d: %s' % (i, com.replace('-/', '- /'))))
    BS = 16
    def tree(i, j, leaf):
        """the blocks i..j-1"""
        if j - i == 1: return '(.leaf %s)' % leaf(i)
        m = (i + j) // 2
        return '(.fork %d %s %s)' % ((m - i) * BS, tree(i, m, leaf), tree(m, j, leaf))
    nb = (len(L) + BS - 1) // BS
    doc = 'the objects of hvcc/interpreters/pd2hv/libs/pd/%s.pd: kind, connections of each outlet, class' % name
    if big:
        for b in range(nb):
            print('/-- %s (part %d) -/' % (doc, b))
            block('def b%d%s : List Node :=' % (b, P), L[b * BS:(b + 1) * BS]); print()
        print('/-- all parts, for looking up -/\ndef tree%s : Tree Node :=\n  %s\n' % (P, tree(0, nb, lambda b: '(b%d%s)' % (b, A))))
        print('/-- all parts -/\ndef nodes%s : List Node := (tree%s).toList' % (P, A))
    else:
        print('/-- %s -/' % doc)
        block('def nodes%s : List Node :=' % P, L)
    nn = len(G.names)
    print('\n/-- receivers by name, in the order of the file: %s -/' % ', '.join('%d = %s' % (v, k) for k, v in G.names.items()))
    print('def recvs : List (List Nat) := %s' % [G.recvs.get(i, []) for i in range(nn)])
    print('\n/-- priorities of receivers, PdReceiveObject.py:96-100 -/')
    print('def prio : Nat → Int')
    for k, v in sorted(G.prio.items()): print('  | %d => %d' % (k, v))
    print('  | _ => 0')
    print('\n/-- the receivers in the order in which they fire -/')
    print('def order : List (List Nat) := %s' % [sorted(G.recvs.get(i, []), key=lambda n: -G.prio[n]) for i in range(nn)])
    print('\n/-- the object connected to inlet `i` -/')
    print('def drv (i : Nat) : Nat := %d + i' % (drivers[0] if drivers else len(G.nodes)))
    print('\n/-- the abstraction as it is (`Verif.Control`: C45, C35) -/')
    print('def mach%s (c : Ctx) : Mach := source c (nodes%s) (recvsOf recvs) prio (recvsOf order)' % (P, A))
    print('\n/-- `M` is generated code -/')
    print('def Code%s (c : Ctx) (M : Mach) : Prop := Compiled c (nodes%s) (recvsOf recvs) prio M' % (P, A))
    print('\n/-- what it means -/')
    print('def sys%s (c : Ctx) : Control.Sys St Msg := (mach%s c).sys' % (P, A))
    # ranks of sequences
    seqs = [i for i, n in enumerate(G.nodes) if n[0].startswith('.seq')]
    rk = {}
    def rank(i):
        if i not in rk:
            rk[i] = 1 + max([rank(d[0]) for ds in G.nodes[i][1] for d in ds if d[0] in seqs] or [0])
        return rk[i]
    ranks = [rank(i) if i in seqs else 0 for i in range(len(G.nodes))]
    if big:
        print('\ntheorem sys_eq%s (c : Ctx) : sys%s c = (patchT (tree%s) (recvsOf recvs) prio).means (recvsOf order) (env c (clsT (tree%s))) :=\n  source_tree (t := tree%s) rfl c _ _ _' % (P, A, A, A, A))
        for b in range(nb):
            print('\n/-- kinds and connections (part %d) -/' % b)
            print('def s%d : Shape :=\n  [' % b + ',\n   '.join('(%s, [%s])' % (k, ', '.join('[%s]' % ', '.join('(%d, %d)' % d for d in ds) for ds in o)) for (k, o, c, com) in G.nodes[b * BS:(b + 1) * BS]) + ']')
        print('\ndef shapeT : Tree (Kind × List (List Dest)) :=\n  %s' % tree(0, nb, lambda b: 's%d' % b))
        print('\n/-- how long chains of [trigger]s are -/\ndef ranks : Tree Nat :=\n  %s' % tree(0, nb, lambda b: str(ranks[b * BS:(b + 1) * BS])))
        print('\ntheorem shape_eq%s : shapeOf (nodes%s) = shapeT.toList := rfl' % (P, A))
        print('\ntheorem checked%s : check (shapeOf (nodes%s)) recvs order prio ranks.toList = true := by\n  rw [shape_eq, check_tree rfl rfl]\n  decide +kernel' % (P, A))
    else:
        print('\n/-- kinds and connections -/')
        print('def shape : Shape :=\n  [' + ',\n   '.join('(%s, [%s])' % (k, ', '.join('[%s]' % ', '.join('(%d, %d)' % d for d in ds) for ds in o)) for (k, o, c, com) in G.nodes) + ']')
        print('\ntheorem shape_eq%s : shapeOf (nodes%s) = shape := rfl' % (P, A))
        print('\ntheorem checked%s : check (shapeOf (nodes%s)) recvs order prio %s = true := by\n  rw [shape_eq]\n  decide +kernel' % (P, A, ranks))
    print('\ntheorem classes%s : clsOK (nodes%s) = true := rfl' % (P, A))
    if nin:
        print('\ntheorem drv_valid%s {i : Nat} (h : i < %d) (m : Msg) : (Control.Src.outlet (drv i) 0 m).Valid (mkPatch (nodes%s) (recvsOf recvs) prio) (nodes%s).length := by' % (P, nin, A, A))
        print('  have : %s := by omega' % ' ∨ '.join('i = %d' % i for i in range(nin)))
        print('  rcases this with %s <;> exact ⟨Nat.le_of_ble_eq_true rfl, rfl, Nat.le_of_ble_eq_true rfl⟩' % ' | '.join('rfl' for i in range(nin)))
    if nin:
        print("""
/-- messages for the inlets there are -/
def Inlet : Ev → Prop
  | .ext _ i _ => i < %d
  | .tick => True

theorem driven%s {e : Ev} (h : Inlet e) : Driven (nodes%s) (recvsOf recvs) prio drv e := by
  cases e with
  | ext t i m => exact drv_valid%s h
  | tick => trivial

theorem to_code {c : Ctx}%s {M : Mach} (hM : Code%s c M) {tab : Nat → List ℚ} {Fits : Ev → Prop} (hf : ∀ e, Fits e → Inlet e) {σ : Type}
    {on : σ → Ev → σ} {x0 : σ} {Sim : σ → St → Prop}
    (h : Simulates (mach%s c) drv (start c (nodes%s) tab) Fits on x0 Sim) :
    Simulates M drv (start c (nodes%s) tab) Fits on x0 (fun x s => Sim x s ∧ GoodQ (nodes%s) s) :=
  h.code (checked%s) (classes%s) hM fun e he => driven%s (hf e he)""" % (nin, P, A, A, PI, A, A, A, A, A, A, A, A))
    # how far a message to an inlet goes through borders and triggers
    far = {}
    def out(o, k): return G.nodes[o][1][k] if k < len(G.nodes[o][1]) else []
    def go(d):
        if d not in far:
            far[d] = None
            k = G.nodes[d[0]][0]
            if k.startswith('.graph'):
                ins = [int(w) for w in re.findall(r'\d+', k)]; es = out(ins[d[1]], 0)
            elif k.startswith('.outlet'):
                gg, kk = [int(w) for w in re.findall(r'\d+', k)]; es = out(gg, kk)
            elif k.startswith('.seq'): es = [e for ds in G.nodes[d[0]][1] for e in ds]
            else: es = []
            far[d] = 1 + max([go(e) for e in es]) if es else 0
        return far[d]
    rows = []
    for i, (k, o, c, com) in enumerate(G.nodes):
        if k.startswith('.graph'): rows.append([go((i, j)) for j in range(len(re.findall(r'\d+', k)))])
        elif k.startswith(('.outlet', '.seq')): rows.append([go((i, 0))])
        else: rows.append([])
    if fuel:
        if big:
            print('\n/-- how far messages go through borders of subpatches and [trigger]s -/\ndef far : Tree (List Nat) :=\n  %s' % tree(0, nb, lambda b: str(rows[b * BS:(b + 1) * BS])))
            print('\n/-- it compiles -/')
            print('theorem code_exists%s (c : Ctx) : ∃ M, Code%s c M := exists_compiled_far c (checked%s) (k := far) (by rw [shape_eq, total_tree rfl]; decide +kernel)' % (P, A, A))
        else:
            print('\n/-- it compiles -/')
            print('theorem code_exists%s (c : Ctx) : ∃ M, Code%s c M := exists_compiled c (checked%s) (f := %d) (by rw [shape_eq]; decide +kernel)' % (P, A, A, fuel))
    if G.tables: print('\n-- tables: %s' % ', '.join('%d = %s (%s)' % (v, k, G.tabsize[v] if v < len(G.tabsize) else '?') for k, v in G.tables.items()))
    print('\n/-! one lemma per object, for rewriting -/\n')
    for i, (k, o, c, com) in enumerate(G.nodes):
        pr = ('p%d ' % 0)
        hd = 'theorem n%d%s (c : Ctx) (i : Nat) (m : Msg) : (sys%s c).node (%d, i) m = ' % (i, P, A, i)
        dl = lambda ds, m='m': '[%s]' % ', '.join('((%d, %d), %s)' % (d[0], d[1], m) for d in ds)
        if k == '.obj':
            lemma(hd + '.obj (beh c (%s) %d i m) := rfl' % (c, i))
            for j, ds in enumerate(o):
                lemma('theorem o%d_%d%s (c : Ctx) : (sys%s c).out %d %d = [%s] := rfl' % (i, j, P, A, i, j, ', '.join('(%d, %d)' % d for d in ds)))
        elif k.startswith('.graph'):
            ins = [int(w) for w in re.findall(r'\d+', k)]
            for j, n in enumerate(ins):
                lemma('theorem n%d_%d%s (c : Ctx) (m : Msg) : (sys%s c).node (%d, %d) m = .fwd false %s := rfl' % (i, j, P, A, i, j, dl(G.nodes[n][1][0])))
        elif k.startswith('.outlet'):
            gg, kk = [int(w) for w in re.findall(r'\d+', k)]
            lemma(hd + '.fwd false %s := rfl' % dl(G.nodes[gg][1][kk] if kk < len(G.nodes[gg][1]) else []))
        elif k.startswith('.seq'):
            cs = [w.strip() for w in k[6:-1].split(',')]
            parts = []
            for j in reversed(range(len(cs))):
                if cs[j] == 'none': parts.append(dl(o[j]))
                else: parts.append('castTo %s %s' % (cs[j].replace('some ', ''), '[%s]' % ', '.join('(%d, %d)' % d for d in o[j]) + ' m'))
            osl = '[%s]' % ', '.join('[%s]' % ', '.join('(%d, %d)' % d for d in ds) for ds in o)
            st = hd + '.fwd false (%s) := ' % ' ++ ('.join(parts + ['[]' + ')' * len(parts)])
            pf = 'rcases m with _ | ⟨_ | _ | _, _⟩ <;> rfl' if any(c not in ('none', 'some .bang') for c in cs) else 'rfl'
            if big: print(st + 'by rw [sys_eq, seq_T (cs := %s) (outs := %s) rfl]; %s' % (k[5:], osl, pf))
            else: print(st + ('by ' + pf if pf != 'rfl' else pf))
        elif k.startswith('.cast'):
            t = k.split(' ')[1]
            lemma(hd + 'castNode %s [%s] m := %s' % (t, ', '.join('(%d, %d)' % d for d in o[0]), 'rfl' if t == '.bang' else 'by rcases m with _ | ⟨_ | _ | _, _⟩ <;> rfl'))
        elif k.startswith('.send'):
            nm = int(k.split(' ')[1])
            rs = sorted(G.recvs.get(nm, []), key=lambda n: -G.prio[n])
            lemma(hd + '.fwd true %s := rfl' % dl([d for r in rs for d in G.nodes[r][1][0]]))
    print()
    lem = []
    for i, (k, o, c, com) in enumerate(G.nodes):
        if k == '.obj': lem += ['n%d' % i] + ['o%d_%d' % (i, j) for j in range(len(o))]
        elif k.startswith('.graph'): lem += ['n%d_%d' % (i, j) for j, _ in enumerate(re.findall(r'\d+', k))]
        elif k.startswith(('.outlet', '.seq', '.cast', '.send')): lem.append('n%d' % i)
    print('attribute [lib_%s] %s' % (ns.lower(), ' '.join(lem)))
    print('\nend Verif.Lib.%s' % ns)
main()
