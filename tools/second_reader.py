#!/usr/bin/env python3
"""Read the Rust text quoted in the model a second time, with Python's parser, and compare the
syntax trees with those of the Lean parsers.

usage: second_reader.py      (needs a built lean/ directory; runs `lake env lean` once)

Python's operators have the same relative precedence and associativity as Rust's for the operators
that occur (`*`, `+ -`, `<< >>`, `&`, `|`); `as` is read as `**`, which binds tighter than `*`.
"""
import ast, glob, os, re, subprocess, sys, tempfile

here = os.path.join(os.path.dirname(os.path.abspath(__file__)), '..', 'lean')
BIN = {ast.Add: 'add', ast.Sub: 'sub', ast.Mult: 'mul', ast.BitAnd: 'and', ast.BitOr: 'or',
       ast.LShift: 'shl', ast.RShift: 'shr'}

def strip(text):
    return re.sub(r'//[^\n]*', '', text)

def statements(text):
    parts = [' '.join(s.split()) for s in strip(text).split(';')]
    assert parts[-1] == '', parts[-1]
    return parts[:-1]

def python(e):
    e = re.sub(r'\.0\[', '_[', e)
    e = e.replace('i64::from(rhs)', 'i64_from_rhs').replace('C::', 'C.')
    e = re.sub(r'\bas (\w+)', r'** \1', e)
    return ast.parse('(' + e + ')', mode='eval').body

def slot(e):
    """place self.0[i], rhs.0[i] or bytes[i]"""
    base = {'self_': 0, 'rhs_': 16, 'bytes': 16}[e.value.id]
    return base + e.slice.value

def limb(text, cval, climb, cshift):
    names = {}
    def ex(e):
        if isinstance(e, ast.Constant): return f'{e.value}'
        if isinstance(e, ast.Name):
            if e.id == 'C_VAL': return f'{cval}'
            if e.id == 'i64_from_rhs': return '$16'
            return f'${names[e.id]}'
        if isinstance(e, ast.Subscript): return f'${slot(e)}'
        if isinstance(e, ast.Call):
            assert e.func.attr == 'carry_out' and not e.args
            base = {'self': 0, 'rhs': 16}[e.func.value.id]
            return f'(shr ${base + climb} {cshift})'
        assert isinstance(e, ast.BinOp), ast.dump(e)
        if isinstance(e.op, ast.Pow):
            if e.right.id == 'u8': return f'(u8 {ex(e.left)})'
            # a byte read as i64
            assert e.right.id == 'i64' and e.left.value.id == 'bytes'
            return ex(e.left)
        return f'({BIN[type(e.op)]} {ex(e.left)} {ex(e.right)})'
    out = []
    for s in statements(text):
        l, r = s.split('=', 1)
        v = ex(python(r))
        m = re.fullmatch(r'let (\w+) ', l)
        if m:
            names[m.group(1)] = 128 + len([x for x in out if x.startswith('(bind')])
            out.append(f'(bind ${names[m.group(1)]} {v})')
        else:
            out.append(f'(store ${slot(python(l.strip()))} {v})')
    return out

def chain(text):
    names = {'self': 0, 'ONE': 1, 'M_HALF': 2, 'COEFF': 3}
    n = [4]
    def step(s):
        m = re.fullmatch(r'let mut (\w+) = (\w+)\.(clone|squared|quartic_legendre)\(\)', s)
        if m:
            y = names[m.group(2)]
            names[m.group(1)] = n[0]; n[0] += 1
            return f'({m.group(3)} {names[m.group(1)]} {y})'
        m = re.fullmatch(r'(\w+)\.square\(\)', s)
        if m: return f'(square {names[m.group(1)]})'
        m = re.fullmatch(r'\*?(\w+) ([-+*])= &(\w+)', s)
        if m: return f'({m.group(2)}= {names[m.group(1)]} {names[m.group(3)]})'
        m = re.fullmatch(r'(\w+)', s)
        if m: return f'(ret {names[m.group(1)]})'
        m = re.fullmatch(r'&(\w+) \* &(\w+)', s)
        if m: return f'(ret* {names[m.group(1)]} {names[m.group(2)]})'
        raise ValueError(s)
    text = ' '.join(strip(text).split())
    out = []
    while text:
        m = re.match(r'for _ in (\d+)\.\.(\d+) \{ (.*?); \} ?', text)
        if m:
            body = ' '.join(step(s.strip()) for s in m.group(3).split(';'))
            out.append(f'(for {m.group(1)} {m.group(2)} {body})')
            text = text[m.end():]
        elif ';' in text:
            s, text = text.split(';', 1)
            out.append(step(s.strip())); text = text.strip()
        else:
            out.append(step(text)); text = ''
    return out

def point(text):
    names = {f'{v}.{c}': i for i, (v, c) in
             enumerate((v, c) for v in ('self', 'rhs') for c in 'xyzt')}
    n = [8]
    def ex(e):
        if isinstance(e, ast.Name): return f'${names[e.id]}'
        if isinstance(e, ast.Attribute): return f'${names[e.value.id + "." + e.attr]}'
        if isinstance(e, ast.Call):
            f = e.func
            if f.attr == 'd_val':
                assert f.value.id == 'C' and not e.args
                return 'd'
            if f.attr == 'squared':
                assert not e.args
                return f'(squared {ex(f.value)})'
            assert f.attr == 'small_mul'
            return f'(small_mul {ex(f.value)} {e.args[0].value})'
        assert type(e.op) in (ast.Add, ast.Sub, ast.Mult)
        return f'({BIN[type(e.op)]} {ex(e.left)} {ex(e.right)})'
    out = []
    for s in statements(text):
        l, r = s.split('=', 1)
        v = ex(python(r)); l = l.strip()
        if l.startswith('let '):
            names[l[4:]] = n[0]; n[0] += 1
            l = l[4:]
        out.append(f'(set ${names[l]} {v})')
    return out

def ladder(text):
    out = []
    for s in statements(text):
        for rx, f in [(r'let idx = nbits - 1 - i', '(idx)'),
                      (r'let bit = rhs\.bit_normalized\(idx\)', '(bit)'),
                      (r'let (\w+) = C::Scalar::filled\(bit\)', r'(mask \1)'),
                      (r'let (\w+) = C::Scalar::filled\(!bit\)', r'(mask! \1)'),
                      (r'(?:let mut )?(\w+) = (\w+)', r'(copy \1 \2)'),
                      (r'(\w+) \+= (\w+)', r'(+= \1 \2)'),
                      (r'(\w+)\.normalized_bitand\(&(\w+)\)', r'(and \1 \2)'),
                      (r'(\w+)\.normalized_bitor\(&(\w+)\)', r'(or \1 \2)'),
                      (r'(\w+)\.double\(\)', r'(double \1)')]:
            m = re.fullmatch(rx, s)
            if m:
                out.append(m.expand(f)); break
        else: raise ValueError(s)
    return out

mine = {}
for path in sorted(glob.glob(here + '/Verif/Model/Fields/E*.lean')) + [here + '/Verif/Model/Edwards.lean']:
    s = open(path).read()
    ns = 'Fields.' + os.path.basename(path)[:-5]
    for m in re.finditer(r'def (\w+) : (?:Prog|Chain|PProg|List LStmt) := '
                         r'rust_(\w+)% ?(\d+)? ?(\d+)? ?(\d+)? ?"([^"]*)"', s):
        name, kind, text = m.group(1), m.group(2), m.group(6)
        if kind == 'prog':
            mine[f'{ns}.{name}'] = limb(text, int(m.group(3)), int(m.group(4)), int(m.group(5)))
        elif kind == 'chain': mine[f'{ns}.{name}'] = chain(text)
        elif kind == 'point': mine[f'EdwardsExtended.{name}'] = point(text)
        else: mine[f'Ladder.{name}'] = ladder(text)

LEAN = r'''
import Verif.Model.Edwards
open Verif
partial def pe : Verif.Expr → String
  | .lit n => s!"{n}" | .get n => s!"${n}"
  | .add a b => s!"(add {pe a} {pe b})" | .sub a b => s!"(sub {pe a} {pe b})"
  | .mul a b => s!"(mul {pe a} {pe b})" | .and a b => s!"(and {pe a} {pe b})"
  | .or a b => s!"(or {pe a} {pe b})" | .shl a k => s!"(shl {pe a} {k})"
  | .shr a k => s!"(shr {pe a} {k})" | .u8 a => s!"(u8 {pe a})"
def ps : Stmt → String
  | .bind s e => s!"(bind ${s} {pe e})" | .store s e => s!"(store ${s} {pe e})"
def pc : CStep → String
  | .clone x y => s!"(clone {x} {y})" | .squared x y => s!"(squared {x} {y})"
  | .quartic x y => s!"(quartic_legendre {x} {y})" | .square x => s!"(square {x})"
  | .mulAssign x y => s!"(*= {x} {y})" | .subAssign x y => s!"(-= {x} {y})"
  | .addAssign x y => s!"(+= {x} {y})" | .ret x => s!"(ret {x})" | .retMul x y => s!"(ret* {x} {y})"
def pcs : CStmt → String
  | .step s => pc s
  | .loop a b l => s!"(for {a} {b} {" ".intercalate (l.map pc)})"
partial def pp : PExpr → String
  | .get r => s!"${r}" | .dval => "d" | .add a b => s!"(add {pp a} {pp b})"
  | .sub a b => s!"(sub {pp a} {pp b})" | .mul a b => s!"(mul {pp a} {pp b})"
  | .squared a => s!"(squared {pp a})" | .smallMul a n => s!"(small_mul {pp a} {n})"
def pps : PStmt → String
  | .set r e => s!"(set ${r} {pp e})"
def pv : LVar → String
  | .r0 => "r0" | .r1 => "r1" | .d0 => "d0" | .d1 => "d1"
def pm : LMask → String
  | .tmask => "tmask" | .fmask => "fmask"
def pl : LStmt → String
  | .letIdx => "(idx)" | .letBit => "(bit)"
  | .letMask m n => if n then s!"(mask! {pm m})" else s!"(mask {pm m})"
  | .copy x y => s!"(copy {pv x} {pv y})" | .addAssign x y => s!"(+= {pv x} {pv y})"
  | .bitand x m => s!"(and {pv x} {pm m})" | .bitor x y => s!"(or {pv x} {pv y})"
  | .double x => s!"(double {pv x})" | .ifBit a b => s!"(if {pl a} {pl b})"
def out {α} (n : String) (f : α → String) (l : List α) : IO Unit :=
  IO.println (n ++ "\t" ++ "\t".intercalate (l.map f))
'''
PR = {'Fields': 'ps', 'EdwardsExtended': 'pps', 'Ladder': 'pl'}
body = ''
for k in mine:
    f = 'pcs' if k.startswith('Fields') and k.endswith('C') else PR[k.split('.')[0]]
    body += f'#eval out "{k}" {f} Verif.{k}\n'
with tempfile.NamedTemporaryFile('w', suffix='.lean', delete=False) as t:
    t.write(LEAN + body)
r = subprocess.run(['lake', 'env', 'lean', t.name], cwd=here, capture_output=True, text=True)
os.unlink(t.name)
theirs = {}
for line in r.stdout.splitlines():
    p = line.split('\t')
    theirs[p[0]] = p[1:]
bad = 0
for k in mine:
    if mine[k] != theirs.get(k):
        bad += 1
        print('differs:', k)
        for a, b in zip(mine[k], theirs.get(k) or []):
            if a != b:
                print('  ', a, '\n  ', b); break
print(f'{len(mine)} texts, {sum(map(len, mine.values()))} statements, {bad} differences')
sys.exit(1 if bad or len(mine) != len(theirs) else 0)
